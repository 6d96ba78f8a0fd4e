import Verif.Model.LowAVX512Table
import Verif.Spec.LowAVX512Stubs

/-!
# The tables of the AVX-512 bindings agree with the stub file, row by row
-/

namespace Verif.LowAVX512

open Spec.Low

/-- The conversion used for a C type. -/
def convFor : CTy → Conv
  | .char => .asChar
  | .short => .asShort
  | .int | .constInt | .enum => .asInt
  | .uint => .asULong
  | .llong => .asLongLong
  | .ullong => .asULongLong
  | .float | .double => .asDouble
  | _ => .deref

/-- Declarations for parameters from slot `k` on. -/
def declsFor : List CTy → Nat → List Decl
  | [], _ => []
  | t :: ts, k => ⟨t, convFor t, k⟩ :: declsFor ts (k + 1)

/-- `k`, `k + 1`, … -/
def slots : List CTy → Nat → List Nat
  | [], _ => []
  | _ :: ts, k => k :: slots ts (k + 1)

/-- First slot of the parameters. -/
def first : Option CTy → Nat
  | none => 0
  | some _ => 1

/-- The implementation a stub leads one to expect (in the shape of this code). -/
def implFor (s : Stub) : Impl :=
  bif s.raises then .unsupported
  else bif needsConst s then .immediate s.hints.length
  else .call (s.params.length + first s.ret) (declsFor s.params (first s.ret)) s.proto (slots s.params (first s.ret)) s.ret

/-- The annotation used for a C type. -/
def hintFor (t : CTy) : Hint :=
  bif boxed t || t == .ptr then .ptr else bif t == .enum then .enum else .int

/-- Annotations of all parameters. -/
def hintsFor (s : Stub) : List Hint :=
  match s.ret with
  | none => s.params.map hintFor
  | some _ => .ptr :: s.params.map hintFor

/-- One row of each table. -/
def rowOk (m w : Ident × Ident) (f : Ident × Impl) (s : Stub) : Bool :=
  Nat.beq m.1 s.method && Nat.beq m.2 w.1 && Nat.beq w.2 f.1 && decide (f.2 = implFor s) && decide (s.hints = hintsFor s)

/-- All rows. -/
def rowsOk : List (Ident × Ident) → List (Ident × Ident) → List (Ident × Impl) → List Stub → Bool
  | [], [], [], [] => true
  | m :: ms, w :: ws, f :: fs, s :: ss => rowOk m w f s && rowsOk ms ws fs ss
  | _, _, _, _ => false

/-- The keys of a table are strictly increasing. -/
def increasing {α : Type} : List (Ident × α) → Bool
  | [] => true
  | [_] => true
  | a :: b :: t => Nat.blt a.1 b.1 && increasing (b :: t)

set_option maxRecDepth 20000 in
theorem rows_ok : rowsOk methods wrappers impls stubs = true := by decide +kernel

set_option maxRecDepth 20000 in
theorem methods_increasing : increasing methods = true := by decide +kernel

set_option maxRecDepth 20000 in
theorem wrappers_increasing : increasing wrappers = true := by decide +kernel

set_option maxRecDepth 20000 in
theorem impls_increasing : increasing impls = true := by decide +kernel

end Verif.LowAVX512
