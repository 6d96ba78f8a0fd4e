import Verif.Lemmas.Store
import Verif.Lemmas.ListSort
import Verif.Lemmas.CPySortKeeps
import Verif.Model.SortReentry
import Verif.Spec.Reentry

namespace Verif.Reentry

open Verif.Store Verif.Spec
open Verif.CPySort
open Verif.ListSort (writeBack Call finish intArray)

variable {cfg : Cfg} {K : Kind} {grow : Nat → Nat → Nat} {w : World} {σ κ ν α : Type}

/-! ## Lists that are left alone -/

/-- The list `o` has its vector and its cells as before. -/
def Same (o : Nat) (w w' : World) : Prop :=
  w'.objs o = w.objs o ∧ ∀ b m, w.objs o = some ⟨some b, m⟩ → w'.mem b = w.mem b

theorem Same.refl (o : Nat) (w : World) : Same o w w := ⟨rfl, fun _ _ _ => rfl⟩

theorem Same.trans {o : Nat} {a b c : World} (h : Same o a b) (h' : Same o b c) : Same o a c :=
  ⟨h'.1.trans h.1, fun x m hx => (h'.2 x m (by rw [h.1]; exact hx)).trans (h.2 x m hx)⟩

theorem put_same (h : WF w) {o p : Nat} {v : Vec} {cs l : List Int} {need : Nat} (ho : w.objs o = some v) (hp : p ≠ o) :
    Same p w (put grow w o v cs l need) := by
  obtain ⟨blk, n⟩ := v
  unfold put
  split
  · cases blk with
    | none =>
      constructor
      · simp only [upd_other _ _ hp]
      · intro b m _; rfl
    | some b =>
      constructor
      · simp only [upd_other _ _ hp]
      · intro c m hc
        have : c ≠ b := by rintro rfl; exact hp (h.sep p o c m n hc ho)
        simp only [upd_other _ _ this]
  · constructor
    · simp only [upd_other _ _ hp]
    · intro c m hc
      obtain ⟨cs', hcs, _⟩ := h.vec p c m hc
      have hnc : c ≠ w.next := by have := h.low c cs' hcs; omega
      simp only [upd_other _ _ hnc]
      cases blk with
      | none => rfl
      | some b =>
        have : c ≠ b := by rintro rfl; exact hp (h.sep p o c m n hc ho)
        simp only [upd_other _ _ this]

theorem fresh_same (h : WF w) {o p : Nat} {l : List Int} {cap : Nat} (hp : p ≠ o) : Same p w (fresh w o l cap) := by
  unfold fresh
  split
  · constructor
    · simp only [upd_other _ _ hp]
    · intro b m _; rfl
  · constructor
    · simp only [upd_other _ _ hp]
    · intro c m hc
      obtain ⟨cs', hcs, _⟩ := h.vec p c m hc
      have hnc : c ≠ w.next := by have := h.low c cs' hcs; omega
      simp only [upd_other _ _ hnc]

theorem callOp_same (h : WF w) {o p : Nat} {op : Op} {hint : Nat} {w' : World}
    (hs : (callOp cfg K grow w o op hint).state? = some w') (hp : p ≠ o) : Same p w w' := by
  rcases callOp_state h hs with rfl | ⟨v, cs, l', ho, hcs, rfl⟩
  · exact Same.refl _ _
  · exact put_same h ho hp

theorem step_same (h : WF w) {e : Ev} {w' : World} {c : Nat} (hs : (step cfg K grow w e).state? = some w')
    (hu : ¬ Touches c w e) : Same c w w' := by
  have hd := step_did h hs
  cases hd with
  | same _ e => rw [e]; exact Same.refl _ _
  | create o arg n l ho e => rw [e]; exact fresh_same h (fun x => hu x.symm)
  | call o op hint hs => exact callOp_same h hs (fun x => hu x.symm)
  | callOn o p b s _ hs' => exact callOp_same h hs' (fun x => hu x.symm)
  | copy o d v cs ho hc hcn e => rw [e]; exact fresh_same h (fun x => hu x.symm)
  | drop o v ho ho' hm hv hn =>
    have hc : c ≠ o := fun x => hu x.symm
    constructor
    · rw [ho', upd_other _ _ hc]
    · intro b m hb
      rw [hm]
      obtain ⟨blk, n⟩ := v
      cases blk with
      | none => rfl
      | some b' =>
        have : b ≠ b' := by rintro rfl; exact hc (h.sep c o b m n hb ho)
        simp only [upd_other _ _ this]
  | view o id v ho e => subst e; exact ⟨rfl, fun _ _ _ => rfl⟩
  | write id i a o b n cs hv hm e =>
    subst e
    refine ⟨rfl, ?_⟩
    intro d m hd
    have : d ≠ b := by
      rintro rfl
      have := h.vown id o d n c m hv hd
      exact hu (by rw [Touches, hv, this]; rfl)
    simp only [upd_other _ _ this]
  | release id e => subst e; exact ⟨rfl, fun _ _ _ => rfl⟩

/-! ## Sequences of operations -/

section
variable {ok : World → Ev → World → Prop}

theorem _root_.Verif.Spec.Reach.trans {a b c : World} (h : Reach cfg K grow ok a b) (h' : Reach cfg K grow ok b c) :
    Reach cfg K grow ok a c := by
  induction h' with
  | refl => exact h
  | step w' w'' e _ hs he ih => exact .step _ _ _ e ih hs he

theorem _root_.Verif.Spec.Reach.wf {a b : World} (h : Reach cfg K grow ok a b) (ha : WF a) : WF b := by
  induction h with
  | refl => exact ha
  | step w' w'' e _ hs _ ih => exact step_wf ih hs

theorem _root_.Verif.Spec.Reach.same {o : Nat} {a b : World} (h : Reach cfg K grow (Elsewhere o) a b) (ha : WF a) : Same o a b := by
  induction h with
  | refl => exact Same.refl _ _
  | step w' w'' e hw hs he ih => exact ih.trans (step_same (hw.wf ha) hs he)

theorem _root_.Verif.Spec.Reach.home {o b n : Nat} {a w' : World} (h : Reach cfg K grow (InRoom o n) a w') (ha : WF a) (hh : Home o b n a)
    (hl : ∀ l, contents a o = some l → l.length ≤ n) : Home o b n w' ∧ ∀ l, contents w' o = some l → l.length ≤ n := by
  induction h with
  | refl => exact ⟨hh, hl⟩
  | step w1 w2 e hw hs he ih =>
    refine ⟨step_home (hw.wf ha) ih.1 hs he.1 ?_ ih.2 (fun l hc => he.2.2 l hc), fun l hc => he.2.2 l hc⟩
    intro op hint e' l hc
    have := he.2.1 l hc
    rw [e'] at this
    simpa [promised] using this

theorem _root_.Verif.Spec.Conduct.moves {c : Caller World κ ν} (hc : Conduct cfg K grow ok c) : CallMoves c (Reach cfg K grow ok) where
  refl := .refl
  trans _ _ _ := Reach.trans
  key := hc.key
  lt := hc.lt
  malloc w n := by rw [hc.malloc]; exact .refl _

end

/-- A freed block stays freed. -/
def Gone (b : Nat) (w : World) : Prop := b < w.next ∧ w.mem b = none

theorem put_gone {b o : Nat} {v : Vec} {cs l : List Int} {need : Nat} (hc : cells w v = some cs) (h : Gone b w) :
    Gone b (put grow w o v cs l need) := by
  obtain ⟨blk, n⟩ := v
  unfold put
  split
  · cases blk with
    | none => exact h
    | some d =>
      refine ⟨h.1, ?_⟩
      have : b ≠ d := by
        rintro rfl
        simp only [cells, h.2] at hc
        cases hc
      simp only [upd_other _ _ this]
      exact h.2
  · have hb : b ≠ w.next := by have := h.1; omega
    refine ⟨Nat.lt_succ_of_lt h.1, ?_⟩
    simp only [upd_other _ _ hb]
    cases blk with
    | none => exact h.2
    | some d =>
      by_cases e : b = d
      · subst e; exact upd_same _ _ _
      · simp only [upd_other _ _ e]; exact h.2

theorem fresh_gone {b o : Nat} {l : List Int} {cap : Nat} (h : Gone b w) : Gone b (fresh w o l cap) := by
  unfold fresh
  split
  · exact h
  · have hb : b ≠ w.next := by have := h.1; omega
    refine ⟨Nat.lt_succ_of_lt h.1, ?_⟩
    simp only [upd_other _ _ hb]
    exact h.2

theorem callOp_gone (h : WF w) {b o : Nat} {op : Op} {hint : Nat} {w' : World}
    (hs : (callOp cfg K grow w o op hint).state? = some w') (hg : Gone b w) : Gone b w' := by
  rcases callOp_state h hs with rfl | ⟨v, cs, l', ho, hcs, rfl⟩
  · exact hg
  · exact put_gone hcs hg

theorem step_gone (h : WF w) {e : Ev} {w' : World} {b : Nat} (hs : (step cfg K grow w e).state? = some w')
    (hg : Gone b w) : Gone b w' := by
  have hd := step_did h hs
  cases hd with
  | same _ e => rw [e]; exact hg
  | create o arg n l ho e => rw [e]; exact fresh_gone hg
  | call o op hint hs => exact callOp_gone h hs hg
  | callOn o p b s _ hs' => exact callOp_gone h hs' hg
  | copy o d v cs ho hc hcn e => rw [e]; exact fresh_gone hg
  | drop o v ho ho' hm hv hn =>
    refine ⟨by rw [hn]; exact hg.1, ?_⟩
    rw [hm]
    obtain ⟨blk, n⟩ := v
    cases blk with
    | none => exact hg.2
    | some d =>
      by_cases e : b = d
      · subst e; exact upd_same _ _ _
      · simp only [upd_other _ _ e]; exact hg.2
  | view o id v ho e => subst e; exact hg
  | write id i a o d n cs hv hm e =>
    subst e
    have : b ≠ d := by
      rintro rfl
      rw [hg.2] at hm
      cases hm
    refine ⟨hg.1, ?_⟩
    simp only [upd_other _ _ this]
    exact hg.2
  | release id e => subst e; exact hg

theorem _root_.Verif.Spec.Reach.gone {ok : World → Ev → World → Prop} {b : Nat} {a w' : World} (h : Reach cfg K grow ok a w') (ha : WF a)
    (hg : Gone b a) : Gone b w' := by
  induction h with
  | refl => exact hg
  | step w1 w2 e hw hs _ ih => exact step_gone (hw.wf ha) hs ih

theorem put_next {o : Nat} {v : Vec} {cs l : List Int} {need : Nat} : w.next ≤ (put grow w o v cs l need).next := by
  obtain ⟨blk, n⟩ := v
  unfold put
  split
  · cases blk <;> exact Nat.le_refl _
  · exact Nat.le_succ _

theorem fresh_next {o : Nat} {l : List Int} {cap : Nat} : w.next ≤ (fresh w o l cap).next := by
  unfold fresh
  split
  · exact Nat.le_refl _
  · exact Nat.le_succ _

theorem callOp_next (h : WF w) {o : Nat} {op : Op} {hint : Nat} {w' : World}
    (hs : (callOp cfg K grow w o op hint).state? = some w') : w.next ≤ w'.next := by
  rcases callOp_state h hs with rfl | ⟨v, cs, l', ho, hcs, rfl⟩
  · exact Nat.le_refl _
  · exact put_next

theorem step_next (h : WF w) {e : Ev} {w' : World} (hs : (step cfg K grow w e).state? = some w') : w.next ≤ w'.next := by
  have hd := step_did h hs
  cases hd with
  | same _ e => rw [e]; exact Nat.le_refl _
  | create o arg n l ho e => rw [e]; exact fresh_next
  | call o op hint hs => exact callOp_next h hs
  | callOn o p b s _ hs' => exact callOp_next h hs'
  | copy o d v cs ho hc hcn e => rw [e]; exact fresh_next
  | drop o v ho ho' hm hv hn => rw [hn]; exact Nat.le_refl _
  | view o id v ho e => subst e; exact Nat.le_refl _
  | write id i a o d n cs hv hm e => subst e; exact Nat.le_refl _
  | release id e => subst e; exact Nat.le_refl _

theorem run_next (es : List Ev) : ∀ a b : World, WF a → Store.run cfg K grow a es = some b → a.next ≤ b.next := by
  induction es with
  | nil => intro a b _ h; cases h; exact Nat.le_refl _
  | cons e es ih =>
    intro a b ha h
    unfold Store.run at h
    split at h
    · cases h
    · rename_i w1 hs
      exact Nat.le_trans (step_next ha hs) (ih _ _ (step_wf ha hs) h)

theorem run_reach {ok : World → Ev → World → Prop} (es : List Ev) (hok : ∀ e ∈ es, ∀ a b, ok a e b) : ∀ a b : World,
    Store.run cfg K grow a es = some b → Reach cfg K grow ok a b := by
  induction es with
  | nil => intro a b h; cases h; exact .refl _
  | cons e es ih =>
    intro a b h
    unfold Store.run at h
    split at h
    · cases h
    · rename_i w1 hs
      exact Reach.trans (.step _ _ _ e (.refl _) hs (hok e List.mem_cons_self a w1))
        (ih (fun e he => hok e (List.mem_cons_of_mem _ he)) _ _ h)

/-! ## Writing back -/

theorem writeBack_length (K : Kind) (py : PyVer) : ∀ (l : List PyLong) (e : Option Exc), (writeBack K py l e).1.length = l.length := by
  intro l
  induction l with
  | nil => intro e; rfl
  | cons p ps ih => intro e; simp [writeBack, ih]

/-- The sort on the memory is the sort of the list, followed by the write back. -/
theorem sortIn_eq (h : WF w) (py : PyVer) (c : Caller World κ PyLong) {o : Nat} {l : List Int} (hl : contents w o = some l)
    (hm : ∀ w n, (c.malloc w n).2 = w) (rev : Bool) (hmax : l.length < 2 ^ 60) :
    ∃ v, w.objs o = some v ∧
      ((∃ env', intArray K py c w l rev = .ok (.exc l .memoryError, env') ∧
          sortIn K py c w o rev = .ok (.exc w .memoryError)) ∨
       ∃ l' e w2, l'.length = l.length ∧ intArray K py c w l rev = .ok (finish l' e, w2) ∧
         (∀ ok, Conduct cfg K grow ok c → Reach cfg K grow ok w w2) ∧
         sortIn K py c w o rev = .ok (match writeBlock w2 v.blk l' with
           | .error u => .ub u
           | .ok w => match e with | none => .ok w () | some e => .pending w () e)) := by
  cases ho : w.objs o with
  | none => rw [contents_none ho] at hl; cases hl
  | some v =>
    obtain ⟨cs, hcs⟩ := cells_of h ho
    have e : cs.take v.size = l := by
      simp only [contents, ho, hcs, Option.map_some, Option.some.injEq] at hl
      exact hl
    refine ⟨v, rfl, ?_⟩
    unfold sortIn intArray
    simp only [ho, hcs, e]
    have hm' := hm w l.length
    cases hmal : c.malloc w l.length with
    | mk got w1 =>
      rw [hmal] at hm'
      subst hm'
      cases got with
      | false => exact Or.inl ⟨_, rfl, rfl⟩
      | true =>
        refine Or.inr ?_
        obtain ⟨okb, out, w2, err, hs, hp, _⟩ := sortKeyed_spec c w1 (l.map (box K py)) rev (by simpa using hmax)
        refine ⟨_, _, w2, ?_, by simp only [hs, bind, Except.bind]; rfl, ?_, by simp only [hs, bind, Except.bind]; rfl⟩
        · rw [writeBack_length, hp.length_eq, List.length_map]
        · intro ok hc
          exact sortKeyed_moves hc.moves _ _ _ _ _ _ _ hs

theorem contents_eq {w : World} {o : Nat} {v : Vec} {cs l : List Int} (ho : w.objs o = some v) (hcs : cells w v = some cs)
    (hl : contents w o = some l) : cs.take v.size = l := by
  simp only [contents, ho, hcs, Option.map_some, Option.some.injEq] at hl
  exact hl

/-- Writing back to a list that was left alone. -/
theorem writeBlock_same (h : WF w) {w2 : World} {o : Nat} {v : Vec} {l l' : List Int} (ho : w.objs o = some v)
    (hl : contents w o = some l) (hlen : l'.length = l.length) (hs : Same o w w2) (h2 : WF w2) :
    ∃ w3, writeBlock w2 v.blk l' = .ok w3 ∧ contents w3 o = some l' ∧ ∀ p, p ≠ o → contents w3 p = contents w2 p := by
  obtain ⟨blk, n⟩ := v
  cases blk with
  | none =>
    rw [contents_nul ho] at hl
    cases hl
    have : l' = [] := List.eq_nil_of_length_eq_zero (by simpa using hlen)
    subst this
    exact ⟨w2, rfl, contents_nul (hs.1.trans ho), fun _ _ => rfl⟩
  | some b =>
    obtain ⟨cs, hcs, hle⟩ := h.vec o b n ho
    have hln := contents_len hl ho h
    have hcs2 : w2.mem b = some cs := (hs.2 b n ho).trans hcs
    unfold writeBlock
    by_cases hnil : l' = []
    · subst hnil
      refine ⟨w2, by simp, ?_, fun _ _ => rfl⟩
      have hz : n = 0 := by simp at hlen; omega
      rw [contents_of (hs.1.trans ho) hcs2, hz]
      rfl
    · rw [if_neg hnil]
      simp only [hcs2]
      rw [if_pos (by omega)]
      refine ⟨_, rfl, ?_, ?_⟩
      · refine (contents_of (w := { w2 with mem := upd w2.mem b (some (l' ++ cs.drop l'.length)) }) (hs.1.trans ho) (upd_same _ _ _)).trans ?_
        rw [List.take_append_of_le_length (by omega), List.take_of_length_le (by omega)]
      · intro p hp
        refine contents_frame rfl ?_
        intro d m hd
        have : d ≠ b := by rintro rfl; exact hp (h2.sep p o d m n hd (hs.1.trans ho))
        exact upd_other _ _ this

/-- Writing back to a list that still lives where it did. -/
theorem writeBlock_home (h2 : WF w) {o b n : Nat} {l' : List Int} (hh : Home o b n w) (hlen : l'.length ≤ n) :
    ∃ w3 old, writeBlock w (some b) l' = .ok w3 ∧ contents w o = some old ∧
      contents w3 o = some (over l' old) := by
  obtain ⟨m, cs, ho, hm, hn⟩ := hh.vec
  obtain ⟨cs', hcs', hle⟩ := h2.vec o b m ho
  rw [hm] at hcs'
  cases hcs'
  unfold writeBlock
  by_cases hnil : l' = []
  · subst hnil
    exact ⟨w, cs.take m, by simp, contents_of ho hm, by rw [contents_of ho hm]; simp [over]⟩
  · rw [if_neg hnil]
    simp only [hm]
    rw [if_pos (by omega)]
    refine ⟨_, cs.take m, rfl, contents_of ho hm, ?_⟩
    refine (contents_of (w := { w with mem := upd w.mem b (some (l' ++ cs.drop l'.length)) }) ho (upd_same _ _ _)).trans ?_
    rw [over, List.take_append, List.length_take, Nat.min_eq_left hle, List.drop_take]

theorem writeBlock_gone {w : World} {b : Nat} {l' : List Int} (hne : l' ≠ []) (hg : Gone b w) :
    writeBlock w (some b) l' = .error .useAfterFree := by
  unfold writeBlock
  rw [if_neg hne]
  simp only [hg.2]

/-! ## Other threads -/

theorem store_wf (h : WF w) {b : Nat} {cs : List Int} {i : Nat} {v : Int} (hm : w.mem b = some cs) :
    WF { w with mem := upd w.mem b (some (cs.set i v)) } := by
  constructor
  · exact h.nul
  · intro o d n ho
    obtain ⟨cs', hcs, hle⟩ := h.vec o d n ho
    by_cases e : d = b
    · subst e
      rw [hm] at hcs
      cases hcs
      exact ⟨_, upd_same _ _ _, by rw [List.length_set]; exact hle⟩
    · exact ⟨cs', by simp only [upd_other _ _ e]; exact hcs, hle⟩
  · exact h.sep
  · intro d cs' hd
    by_cases e : d = b
    · subst e; exact h.low d cs hm
    · simp only [upd_other _ _ e] at hd; exact h.low d cs' hd
  · exact h.vlow
  · exact h.vown
  · exact h.vnul

theorem raced_safe {w w' : World} {o b n : Nat} (hw : WF w) (ho : w.objs o = some ⟨some b, n⟩)
    (hr : Raced cfg K grow (Elsewhere o) (some b) w w') :
    WF w' ∧ w'.objs o = some ⟨some b, n⟩ := by
  induction hr with
  | refl => exact ⟨hw, ho⟩
  | store w1 d cs i v _ _ hm ih => exact ⟨store_wf ih.1 hm, ih.2⟩
  | other w1 w2 e _ hs he ih => exact ⟨step_wf ih.1 hs, (step_same ih.1 hs he).1.trans ih.2⟩

theorem raced_of_reach {ok : World → Ev → World → Prop} {blk : Option Nat} {w w' : World} (h : Reach cfg K grow ok w w') :
    Raced cfg K grow ok blk w w' := by
  induction h with
  | refl => exact .refl _
  | step w1 w2 e _ hs he ih => exact .other _ _ _ e ih hs he

/-! ## Linked lists -/

theorem rewrite_ok {s : LState ν} {l : List ν} (h : l.length ≤ s.size) :
    ∃ s', rewrite s l = .ok s' ∧ s'.vals = l ++ s.vals.drop l.length ∧ s'.ids = s.ids := by
  unfold LState.size at h
  unfold rewrite
  rw [if_pos h]
  have hl : (s.ids.take l.length).length = l.length := by
    rw [List.length_take, LState.ids, List.length_map]
    exact Nat.min_eq_left h
  refine ⟨_, rfl, ?_, ?_⟩
  · simp only [LState.vals, List.map_append]
    rw [List.map_snd_zip (by omega), List.map_drop]
  · simp only [LState.ids, List.map_append] at hl ⊢
    rw [List.map_fst_zip (by omega), List.map_drop, List.take_append_drop]

theorem rewrite_short {s : LState ν} {l : List ν} (h : s.size < l.length) : rewrite s l = .error .badIterator := by
  unfold rewrite
  exact if_neg (by unfold LState.size at h; omega)

/-! ## Object array lists -/

theorem keysIn_eq (c : Caller σ κ ν) (vec : σ → OVec ν) (v : OVec ν) (hk : ∀ s x, vec s = v → vec (c.key s x).2 = v) :
    ∀ (n i : Nat) (env : σ), vec env = v → i + n ≤ v.items.length →
    keysIn c vec v.blk env i n = .ok (keysOf c env ((v.items.drop i).take n)) := by
  intro n
  induction n with
  | zero => intro i env _ _; simp [keysIn, keysOf]
  | succ n ih =>
    intro i env hv hle
    have hget : v.items[i]? = some v.items[i] := List.getElem?_eq_getElem (by omega)
    have hd : (v.items.drop i).take (n + 1) = v.items[i] :: (v.items.drop (i + 1)).take n := by
      rw [List.drop_eq_getElem_cons (by omega), List.take_succ_cons]
    rw [hd]
    unfold keysIn keysOf
    have hacc : (vec env).access v.blk i = .ok v.items[i] := by
      unfold OVec.access
      rw [hv, if_neg (by simp), hget]
    simp only [hacc, bind, Except.bind]
    have hk' := hk env v.items[i] hv
    cases hkk : c.key env v.items[i] with
    | mk r e1 =>
      rw [hkk] at hk'
      cases r with
      | error z => rfl
      | ok k =>
        simp only [ih (i + 1) e1 hk' (by omega)]
        cases keysOf c e1 ((v.items.drop (i + 1)).take n) with
        | mk r2 e2 => cases r2 <;> rfl

/-! ## The state after the first key call -/

theorem sortIn_after_key (h : WF w) (py : PyVer) {Q : World → World → Prop} {c : Caller World κ PyLong} (hq : CallMoves c Q) {o : Nat}
    {a : Int} {l : List Int} (hl : contents w o = some (a :: l)) (hm : ∀ w n, c.malloc w n = (true, w)) (rev : Bool)
    (hmax : (a :: l).length < 2 ^ 60) :
    ∃ v l' e w2, w.objs o = some v ∧ l' ≠ [] ∧ Q (c.key w (box K py a)).2 w2 ∧
      sortIn K py c w o rev = .ok (match writeBlock w2 v.blk l' with
        | .error u => .ub u
        | .ok w => match e with | none => .ok w () | some e => .pending w () e) := by
  cases ho : w.objs o with
  | none => rw [contents_none ho] at hl; cases hl
  | some v =>
    obtain ⟨cs, hcs⟩ := cells_of h ho
    have e := contents_eq ho hcs hl
    obtain ⟨okb, out, w2, err, hs, hp, _⟩ := sortKeyed_spec c w ((a :: l).map (box K py)) rev (by simpa using hmax)
    refine ⟨v, (writeBack K py out err).1, (writeBack K py out err).2, w2, rfl, ?_, ?_, ?_⟩
    · intro hnil
      have h1 := writeBack_length K py out err
      have h2 := hp.length_eq
      rw [hnil] at h1
      simp at h1 h2
      omega
    · exact sortKeyed_after_key hq (fun s n => by rw [hm]) _ _ _ _ _ _ _ _ (fun s n => by rw [hm]) hs
    · unfold sortIn
      simp only [ho, hcs, e, hm, hs, bind, Except.bind]
      rfl

/-- A list created with `exceptSize = n > 0` has a block of at least `n` cells. -/
theorem create_home {w1 : World} {o n : Nat} {arg : Option (Int ⊕ Src)} (hg : Grows grow) (hn : 0 < n)
    (hnew : ∀ id x, w.views id = some x → x.of ≠ o)
    (hc : step cfg K grow w (.create o arg n) = .ok w1 .none) : ∃ b, Home o b n w1 := by
  simp only [Store.step] at hc
  cases hv : w.objs o with
  | some v => simp only [hv] at hc; cases hc
  | none =>
    simp only [hv] at hc
    cases hi : ArrayList.init K arg with
    | ok l u =>
      simp only [hi] at hc
      cases hc
      refine ⟨w.next, ?_, ?_⟩
      · have : n ≤ room grow (room grow 0 n) l.length := Nat.le_trans (room_le hg 0 n) (room_ge hg _ _)
        unfold fresh
        rw [if_neg (by omega)]
        refine ⟨_, _, upd_same _ _ _, upd_same _ _ _, ?_⟩
        rw [List.length_append, List.length_replicate]
        omega
      · intro j blk k hj
        rw [fresh_views] at hj
        exact absurd rfl (hnew j _ hj)
    | exc l e => simp only [hi] at hc; cases hc
    | pending l u e => simp only [hi] at hc; cases hc
    | ub u => simp only [hi] at hc; cases hc

/-! ## Linked lists that stay long enough -/

theorem notBelow_moves {n : Nat} {c : Caller (LState ν) κ α} (hc : NotBelow n c) :
    CallMoves c (fun s s' => n ≤ s.size → n ≤ s'.size) where
  refl _ h := h
  trans _ _ _ f g h := g (f h)
  key := hc.key
  lt := hc.lt
  malloc s k h := by rw [hc.malloc]; exact h

theorem empty_moves {c : Caller (LState ν) κ α} (hk : ∀ s x, s.nodes = [] → (c.key s x).2.nodes = [])
    (hl : ∀ s x y, s.nodes = [] → (c.lt s x y).2.nodes = []) (hm : ∀ s k, (c.malloc s k).2 = s) :
    CallMoves c (fun s s' => s.nodes = [] → s'.nodes = []) where
  refl _ h := h
  trans _ _ _ f g h := g (f h)
  key := hk
  lt := hl
  malloc s k h := by rw [hm]; exact h

theorem over_le {l old : List ν} (h : l.length ≤ old.length) : over l old = l ++ old.drop l.length := by
  rw [over, List.take_of_length_le h]

theorem callNotBelow_moves {n : Nat} {c : Call (LState ν) κ ν} (hc : CallNotBelow n c) {s s' : LState ν} {l out : List ν}
    {rev ok : Bool} {err : Option Exc} (hr : c.sort s l rev = .ok (ok, out, s', err)) (hn : n ≤ s.size) : n ≤ s'.size := by
  cases c with
  | keyed c => exact sortKeyed_moves (notBelow_moves hc) _ _ _ _ _ _ _ hr hn
  | plain c =>
    have hc' : NotBelow n ({ c with key := fun s x => (.ok x, s) } : Caller (LState ν) ν ν) :=
      ⟨fun _ _ h => h, hc.1, hc.2⟩
    exact sortPlain_moves (notBelow_moves hc') _ _ _ _ _ _ _ hr hn

theorem callNotBelow_malloc {n : Nat} {c : Call (LState ν) κ ν} (hc : CallNotBelow n c) (s : LState ν) (k : Nat) :
    (c.malloc s k).2 = s := by
  cases c with
  | keyed c => exact hc.malloc s k
  | plain c => exact hc.2 s k

end Verif.Reentry
