import Verif.Model.Ledger
import Verif.Spec.Ledger

/-!
# Specification: states and outcomes of the reference ledger

How the ledger of Model/Ledger relates to the specification and to the models without identities.
-/

namespace Verif.Ledger

/-- No object beyond `next` is in use. -/
def Mem.WF (m : Mem) : Prop := ∀ o, m.next ≤ o → m.heap.rc o = 0 ∧ m.heap.imm o = false

/-- The ints kept ready exist. -/
def World.Ready (w : World) (n : Obj) : Prop := ∀ p o, w.ready p = some o → o < n

/-- A result corresponds to a result without identities. -/
def Matches : Val → Ret → Prop
  | .none, .none => True
  | .self, .self => True
  | .bool b, .bool b' => b = b'
  | .int _, .int _ => True
  | .list _ xs, .pylist ps => xs.length = ps.length
  | .list _ xs, .pyconcat ps as => xs.length = ps.length + as.length
  | .new _, .newList _ => True
  | .new _, .str _ => True
  | _, _ => False

/-- An outcome with counts corresponds to an outcome without. -/
def Agrees : Out (σ × Mem) Val → Out σ Ret → Prop
  | .ok s v, .ok s' r => s.1 = s' ∧ Matches v r
  | .exc s e, .exc s' e' => s.1 = s' ∧ e = e'
  | .pending s v e, .pending s' r e' => s.1 = s' ∧ Matches v r ∧ e = e'
  | .ub u, .ub u' => u = u'
  | _, _ => False

/-- The references of an outcome: those of its result. -/
def given (self : Obj) : Out (σ × Mem) Val → List Obj
  | .ok _ v | .pending _ v _ => v.refs self
  | _ => []

/-- The result of an outcome; none if the call raised. -/
def result? : Out σ Val → Option Val
  | .ok _ v | .pending _ v _ => some v
  | _ => none

/-- What a call can rely on: the objects it knows exist and the list itself is alive. -/
structure Ready (w : World) (m : Mem) (c : Call) : Prop where
  ints : w.Ready m.next
  self : w.self < m.next
  live : m.heap.live w.self = true
  known : c.Known m.next

/-- A history of a list: calls (those that `ok` admits), and between them the caller releases references, takes new ones and
makes objects. `got` are all references the caller received or took, `gone` those it released. -/
inductive Hist (step : World → σ → Mem → Call → Out (σ × Mem) Val) (ok : Call → Prop) (self : Obj) :
    σ → Mem → List Obj → List Obj → σ → Mem → Prop
  | nil {s m} : Hist step ok self s m [] [] s m
  | call {w c s m s' m' got gone s'' m''} : w.self = self → Ready w m c → ok c → (step w s m c).state? = some (s', m') →
      Hist step ok self s' m' got gone s'' m'' → Hist step ok self s m (given self (step w s m c) ++ got) gone s'' m''
  | release {o s m m' got gone s'' m''} : m.drop o = .ok m' → Hist step ok self s m' got gone s'' m'' →
      Hist step ok self s m got (o :: gone) s'' m''
  | take {o s m got gone s'' m''} : o < m.next → Hist step ok self s (m.gain o) got gone s'' m'' →
      Hist step ok self s m (o :: got) gone s'' m''
  | make {s m got gone s'' m''} : Hist step ok self s m.make.1 got gone s'' m'' →
      Hist step ok self s m (m.make.2 :: got) gone s'' m''

/-- The first exception of a key function. -/
def firstError : List (Except Exc (Option Obj)) → Option Exc
  | [] => none
  | .error e :: _ => some e
  | .ok _ :: ks => firstError ks

end Verif.Ledger
