import Verif.Spec.LedgerExact
import Verif.Spec.GuardLedger

/-!
# Specification: histories and the references they lose
-/

namespace Verif.Ledger

/-- A history of an IntLinkedList, with the number of references that its calls lose by `lost`. Between the calls the caller
releases references, takes new ones and makes objects; `got` and `gone` as in `Hist`. `vals` gives the elements. -/
inductive LostHist (step : World → σ → Mem → Call → Out (σ × Mem) Val) (vals : σ → List Int) (cfg : Cfg) (self : Obj) :
    σ → Mem → List Obj → List Obj → Nat → σ → Mem → Prop
  | nil {s m} : LostHist step vals cfg self s m [] [] 0 s m
  | call {w c s m s' m' got gone n s'' m''} : w.self = self → Ready w m c → c.Stored (vals s) →
      (step w s m c).state? = some (s', m') → LostHist step vals cfg self s' m' got gone n s'' m'' →
      LostHist step vals cfg self s m (given self (step w s m c) ++ got) gone
        (lost cfg (vals s) c (result? (step w s m c)) + n) s'' m''
  | release {o s m m' got gone n s'' m''} : m.drop o = .ok m' → LostHist step vals cfg self s m' got gone n s'' m'' →
      LostHist step vals cfg self s m got (o :: gone) n s'' m''
  | take {o s m got gone n s'' m''} : o < m.next → LostHist step vals cfg self s (m.gain o) got gone n s'' m'' →
      LostHist step vals cfg self s m (o :: got) gone n s'' m''
  | make {s m got gone n s'' m''} : LostHist step vals cfg self s m.make.1 got gone n s'' m'' →
      LostHist step vals cfg self s m (m.make.2 :: got) gone n s'' m''

end Verif.Ledger
