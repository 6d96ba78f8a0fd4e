import Verif.Lemmas.Get
import Verif.Spec.Offered

/-! Helper lemmas: which values a call can put into the list. -/

namespace Verif.ArrayList

open Verif

/-- All elements of the state after the call satisfy `P`. -/
def StateAll (P : Int → Prop) (o : LOut) : Prop := ∀ l', o.state? = some l' → ∀ x ∈ l', P x

theorem stateAll_ok {P : Int → Prop} {l : List Int} {r : Ret} (h : ∀ x ∈ l, P x) : StateAll P (.ok l r) := by
  intro l' h'; cases h'; exact h

theorem stateAll_exc {P : Int → Prop} {l : List Int} {e : Exc} (h : ∀ x ∈ l, P x) : StateAll P (.exc l e) := by
  intro l' h'; cases h'; exact h

theorem stateAll_pending {P : Int → Prop} {l : List Int} {r : Ret} {e : Exc} (h : ∀ x ∈ l, P x) :
    StateAll P (.pending l r e) := by
  intro l' h'; cases h'; exact h

theorem stateAll_ub {P : Int → Prop} {u : UB} : StateAll P (.ub u) := by
  intro l' h'; cases h'

theorem all_append {P : Int → Prop} {a b : List Int} (ha : ∀ x ∈ a, P x) (hb : ∀ x ∈ b, P x) :
    ∀ x ∈ a ++ b, P x := by
  intro x hx; rcases List.mem_append.1 hx with h | h
  · exact ha x h
  · exact hb x h

theorem all_cons {P : Int → Prop} {a : Int} {b : List Int} (ha : P a) (hb : ∀ x ∈ b, P x) :
    ∀ x ∈ a :: b, P x := by
  intro x hx; rcases List.mem_cons.1 hx with rfl | h
  · exact ha
  · exact hb x h

theorem all_take {P : Int → Prop} {a : List Int} (ha : ∀ x ∈ a, P x) (n : Nat) : ∀ x ∈ a.take n, P x :=
  fun x hx => ha x (List.mem_of_mem_take hx)

theorem all_drop {P : Int → Prop} {a : List Int} (ha : ∀ x ∈ a, P x) (n : Nat) : ∀ x ∈ a.drop n, P x :=
  fun x hx => ha x (List.mem_of_mem_drop hx)

theorem all_erase {P : Int → Prop} {a : List Int} (ha : ∀ x ∈ a, P x) (n : Nat) : ∀ x ∈ a.eraseIdx n, P x :=
  fun x hx => ha x (List.mem_of_mem_eraseIdx hx)

theorem all_set {P : Int → Prop} {a : List Int} (ha : ∀ x ∈ a, P x) {v : Int} (hv : P v) (n : Nat) :
    ∀ x ∈ a.set n v, P x := by
  intro x hx
  rcases List.mem_or_eq_of_mem_set hx with h | rfl
  · exact ha x h
  · exact hv

theorem extendLoop_all {P : Int → Prop} {K : Kind} (xs : List Arg) (l : List Int) (hl : ∀ x ∈ l, P x)
    (hx : ∀ a ∈ xs, ∀ v, toElem K a = (v, none) → P v) : ∀ x ∈ (extendLoop K xs l).1, P x := by
  induction xs generalizing l with
  | nil => exact hl
  | cons a as ih =>
    rw [extendLoop]
    split
    · exact hl
    · next v h =>
      exact ih _ (all_append hl (all_cons (hx a (by simp) v h) (by simp))) fun b hb => hx b (by simp [hb])

theorem extendWith_all {P : Int → Prop} {K : Kind} (l : List Int) (s : Src) (r : Ret) (hl : ∀ x ∈ l, P x)
    (hsame : ∀ v, s = .same v → ∀ x ∈ v, P x)
    (hx : ∀ a ∈ Spec.srcArgs s, ∀ v, toElem K a = (v, none) → P v) : StateAll P (extendWith K l s r) := by
  have key : ∀ xs, (∀ a ∈ xs, ∀ v, toElem K a = (v, none) → P v) → ∀ l' e,
      extendLoop K xs l = (l', e) → ∀ x ∈ l', P x := by
    intro xs h l' e he
    have := extendLoop_all xs l hl h
    rwa [he] at this
  cases s with
  | same v => exact stateAll_ok (all_append hl (hsame v rfl))
  | self => exact stateAll_ub
  | notIterable => exact stateAll_exc hl
  | list xs | tuple xs | seq xs | seqNoLen xs =>
    simp only [extendWith]
    split
    · next h => exact stateAll_ok (key xs hx _ _ h)
    · next h => exact stateAll_exc (key xs hx _ _ h)
  | iter xs f =>
    simp only [extendWith]
    split
    · next h => exact stateAll_exc (key xs hx _ _ h)
    · next h => exact stateAll_ok (key xs hx _ _ h)
    · next h => exact stateAll_exc (key xs hx _ _ h)

theorem setItem_all {P : Int → Prop} {K : Kind} (l : List Int) (i : Int) (a : Option Arg) (hl : ∀ x ∈ l, P x)
    (ha : ∀ b, a = some b → ∀ v, toElem K b = (v, none) → P v) : StateAll P (setItem K l i a) := by
  rw [setItem_eq]
  split
  · exact stateAll_exc hl
  · split
    · exact stateAll_ok (all_append (all_take hl _) (all_drop hl _))
    · next b =>
      split
      · exact stateAll_exc hl
      · next h => exact stateAll_ok (all_append (all_take hl _) (all_cons (ha b rfl _ h) (all_drop hl _)))

theorem srcItem_all {P : Int → Prop} {cfg : Cfg} {K : Kind} {cur : List Int} {s : Src} {i : Nat} {v : Int}
    {e : Option Exc} (h1 : ∀ a, P (toElem K a).1) (h2 : ∀ x, P (rebox K cfg.py x).1)
    (h : srcItem cfg K cur s i = some (v, e)) : P v := by
  unfold srcItem at h
  split at h
  · obtain ⟨x, -, hx⟩ := Option.map_eq_some_iff.1 h; have := h2 x; rw [hx] at this; exact this
  · obtain ⟨x, -, hx⟩ := Option.map_eq_some_iff.1 h; have := h2 x; rw [hx] at this; exact this
  · obtain ⟨x, -, hx⟩ := Option.map_eq_some_iff.1 h; have := h1 x; rw [hx] at this; exact this
  · obtain ⟨x, -, hx⟩ := Option.map_eq_some_iff.1 h; have := h1 x; rw [hx] at this; exact this
  · obtain ⟨x, -, hx⟩ := Option.map_eq_some_iff.1 h; have := h1 x; rw [hx] at this; exact this
  · obtain ⟨x, -, hx⟩ := Option.map_eq_some_iff.1 h; have := h1 x; rw [hx] at this; exact this
  · cases h
  · cases h

theorem assignLoop_all {P : Int → Prop} {cfg : Cfg} {K : Kind} (s : Src) (h1 : ∀ a, P (toElem K a).1)
    (h2 : ∀ x, P (rebox K cfg.py x).1) (start n i : Nat) (cur : List Int) (hl : ∀ x ∈ cur, P x) :
    StateAll P (assignLoop cfg K s start n i cur) := by
  induction n generalizing i cur with
  | zero => exact stateAll_ok hl
  | succ n ih =>
    rw [assignLoop]
    split
    · exact stateAll_exc hl
    · next v e h =>
      have hv := srcItem_all h1 h2 h
      split
      · split
        · exact stateAll_exc (all_set hl hv _)
        · exact ih _ _ (all_set hl hv _)
      · exact stateAll_ub

theorem insertLoop_all {P : Int → Prop} {cfg : Cfg} {K : Kind} (s : Src) (h1 : ∀ a, P (toElem K a).1)
    (h2 : ∀ x, P (rebox K cfg.py x).1) (start n i : Nat) (cur : List Int) (hl : ∀ x ∈ cur, P x) :
    StateAll P (insertLoop cfg K s start n i cur) := by
  induction n generalizing i cur with
  | zero => exact stateAll_ok hl
  | succ n ih =>
    rw [insertLoop]
    split
    · exact stateAll_exc hl
    · next v e h =>
      have hv := srcItem_all h1 h2 h
      have hc := all_append (all_take hl (start + i)) (all_cons hv (all_drop hl (start + i)))
      split
      · simp only
        split
        · exact stateAll_exc hc
        · exact ih _ _ hc
      · exact stateAll_ub

theorem slice_all {P : Int → Prop} (cfg : Cfg) (K : Kind) (l : List Int) (s : SliceArg) (v : Option (Arg ⊕ Src))
    (h1 : ∀ a, P (toElem K a).1) (h2 : ∀ x, P (rebox K cfg.py x).1) (hl : ∀ x ∈ l, P x) :
    StateAll P (assSubscript cfg K l (.slice s) v) := by
  simp only [assSubscript]
  split
  · exact stateAll_exc hl
  · split
    · exact stateAll_ub
    · exact stateAll_exc hl
    · next src =>
      generalize adjustIndices _ _ _ _ = adj
      obtain ⟨start, stop, n⟩ := adj
      dsimp only
      have ha := fun n' i => assignLoop_all (cfg := cfg) src h1 h2 start.toNat n' i l hl
      split
      · exact stateAll_exc hl
      · split
        · exact stateAll_exc hl
        · split
          · exact ha _ _
          · split
            · have := ha (srcSize l src).toNat 0
              split
              · next l' r heq =>
                rw [heq] at this
                have hl' := this l' rfl
                have h3 := all_append (all_take hl' (start + srcSize l src).toNat) (all_drop hl' stop.toNat)
                split
                · split
                  · exact stateAll_pending h3
                  · exact stateAll_ok h3
                · exact stateAll_ub
              · exact this
            · have := ha n.toNat 0
              split
              · next l' r heq =>
                rw [heq] at this
                exact insertLoop_all src h1 h2 _ _ _ _ (this l' rfl)
              · exact this

/-- Calls that can be slice assignments. -/
def isSliceSet : Op → Bool
  | .set (.slice _) _ => true
  | _ => false

theorem step_all {P : Int → Prop} (cfg : Cfg) (K : Kind) (l : List Int) (op : Op) (hop : isSliceSet op = false)
    (hf : AllFits K l) (hl : ∀ x ∈ l, P x) (h0 : ∀ a, op = .resize a → P 0)
    (hsame : ∀ v, op = .extend (.same v) ∨ op = .iadd (.same v) → ∀ x ∈ v, P x)
    (h1 : ∀ a ∈ Spec.storedArgs op, ∀ v, toElem K a = (v, none) → P v)
    (h2 : ∀ i a, op = .insert i a → ∀ v, parseElem K a = (v, none) → P v) :
    StateAll P (step cfg K l op) := by
  have hmul : ∀ n, StateAll P (mul cfg K l n) := by
    intro n
    simp only [mul]
    generalize (if n < 0 then 0 else n) = m
    split
    · exact stateAll_ok hl
    · split
      · exact stateAll_ub
      · exact stateAll_ok hl
  cases op with
  | append a =>
    simp only [step, append]
    split
    · exact stateAll_exc hl
    · next h => exact stateAll_ok (all_append hl (all_cons (h1 a (by simp [Spec.storedArgs]) _ h) (by simp)))
  | extend s => exact extendWith_all l s _ hl (fun v hv => hsame v (.inl (by rw [hv]))) h1
  | iadd s => exact extendWith_all l s _ hl (fun v hv => hsame v (.inr (by rw [hv]))) h1
  | insert i a =>
    simp only [step, ArrayList.insert]
    split
    · exact stateAll_exc hl
    · exact stateAll_exc hl
    · next i' v hi hv =>
      generalize (if i' < 0 then max 0 ((l.length : Int) + i') else if i' > l.length then (l.length : Int) else i') = j
      split
      · exact stateAll_ok (all_append (all_take hl _) (all_cons (h2 i a rfl _ hv) (all_drop hl _)))
      · exact stateAll_ub
  | pop a =>
    simp only [step, pop]
    split
    · exact stateAll_exc hl
    · split
      · refine stateAll_ok fun x hx => hl x (List.dropLast_subset l hx)
      · split
        · exact stateAll_exc hl
        · next i _ =>
          generalize (if i < 0 then i + (l.length : Int) else i) = j
          split
          · exact stateAll_exc hl
          · split
            · exact stateAll_ub
            · exact stateAll_ok (all_erase hl _)
  | remove a =>
    simp only [step, remove]
    split
    · exact stateAll_exc hl
    · split
      · exact stateAll_exc hl
      · exact stateAll_ok (all_erase hl _)
  | index a i j =>
    simp only [step, index]
    split
    · exact stateAll_exc hl
    · exact stateAll_exc hl
    · exact stateAll_exc hl
    · next v i j _ _ _ =>
      generalize (if (if i < 0 then i + (l.length : Int) else i) < 0 then 0 else
        (if i < 0 then i + (l.length : Int) else i)) = lo
      generalize (if (if j < 0 then j + (l.length : Int) else j) > (l.length : Int) then (l.length : Int) else
        (if j < 0 then j + (l.length : Int) else j)) = hi
      split
      · exact stateAll_exc hl
      · split
        · exact stateAll_ub
        · split
          · exact stateAll_exc hl
          · exact stateAll_ok hl
  | count a =>
    simp only [step, count]
    split
    · exact stateAll_exc hl
    · exact stateAll_ok hl
  | contains a =>
    simp only [step, contains]
    split
    · split
      · exact stateAll_exc hl
      · exact stateAll_ok hl
    · exact stateAll_ok hl
  | get k =>
    simp only [step, subscript]
    split
    · exact stateAll_ub
    · split
      · exact stateAll_exc hl
      · rw [getItem_eq]
        split
        · exact stateAll_exc hl
        · exact stateAll_ok hl
    · split
      · exact stateAll_exc hl
      · split
        · exact stateAll_ub
        · exact stateAll_ok hl
  | set k v =>
    cases k with
    | slice s => cases hop
    | idx a =>
      simp only [step, assSubscript]
      split
      · exact stateAll_ub
      · split
        · exact stateAll_exc hl
        · cases v with
          | inl x =>
            refine setItem_all l _ _ hl fun b hb v hv => ?_
            cases hb
            exact h1 x (by simp [Spec.storedArgs]) v hv
          | inr x =>
            refine setItem_all l _ _ hl fun b hb v hv => ?_
            cases hb
            simp [toElem, asLong] at hv
      · next heq => cases heq
  | del k =>
    cases k with
    | slice s =>
      simp only [step, assSubscript]
      split
      · exact stateAll_exc hl
      · exact stateAll_ub
    | idx a =>
      simp only [step, assSubscript]
      split
      · exact stateAll_ub
      · split
        · exact stateAll_exc hl
        · exact setItem_all l _ _ hl fun b hb => by cases hb
      · next heq => cases heq
  | add s =>
    simp only [step, add]
    split
    · exact stateAll_exc hl
    · exact stateAll_exc hl
    · exact stateAll_ok hl
    · exact stateAll_exc hl
  | mul n =>
    exact hmul n
  | rmul a =>
    simp only [step, rmul]
    split
    · exact stateAll_exc hl
    · exact hmul _
  | imul n =>
    rw [step]
    by_cases hn : n ≤ 1
    · rw [imul_small cfg K l n hn]
      refine stateAll_ok fun x hx => hl x ?_
      unfold Spec.copies at hx
      obtain ⟨y, hy, hxy⟩ := List.mem_flatten.1 hx
      rw [(List.mem_replicate.1 hy).2] at hxy
      exact hxy
    · by_cases hnil : l = []
      · subst hnil
        rw [imul_nil]
        refine stateAll_ok fun x hx => ?_
        unfold Spec.copies at hx
        obtain ⟨y, hy, hxy⟩ := List.mem_flatten.1 hx
        rw [(List.mem_replicate.1 hy).2] at hxy
        exact absurd hxy (by simp)
      · obtain ⟨u, hu⟩ := imul_ub cfg K l n (by omega) hnil
        rw [hu]; exact stateAll_ub
  | cmp op s =>
    have hb : ∀ b p, StateAll P (boolOut l b p) := by
      intro b p
      cases p
      · exact stateAll_ok hl
      · exact stateAll_pending hl
    cases op <;> exact hb _ _
  | reverse =>
    rw [step, reverse_eq cfg K l hf]
    exact stateAll_ok fun x hx => hl x (List.mem_reverse.1 hx)
  | resize a =>
    simp only [step, resize]
    split
    · split
      · exact stateAll_exc hl
      · refine stateAll_ok (all_append (all_take hl _) fun x hx => ?_)
        rw [(List.mem_replicate.1 hx).2]
        exact h0 _ rfl
    · exact stateAll_exc hl
  | clear => exact stateAll_ok (by simp)
  | copy | toList | len | repr => exact stateAll_ok hl

theorem offered_of_toElem {K : Kind} {a : Arg} {v : Int} (ht : NoTrunc K a) (h : toElem K a = (v, none)) :
    Spec.intOf a = some v := by
  rw [toElem_eq ht] at h
  cases a with
  | other => simp [Spec.elem] at h
  | int x | index x =>
    simp only [Spec.elem] at h
    by_cases hx : Spec.InRange K.bits x
    · rw [if_pos hx] at h; cases h; rfl
    · rw [if_neg hx] at h; cases h

theorem wrapS_small (bits : Nat) (hb : bits = 8 ∨ bits = 16) {v : Int} (hv : FitsS bits v) : wrapS bits v = v := by
  unfold wrapS FitsS at *
  rcases hb with rfl | rfl
  · exact Int.bmod_eq_of_le (by omega) (by omega)
  · exact Int.bmod_eq_of_le (by omega) (by omega)

theorem fits_small_abs {bits : Nat} (hb : bits = 8 ∨ bits = 16) {v : Int} (hv : FitsS bits v) : v.natAbs < 2 ^ 30 := by
  unfold FitsS at hv
  rcases hb with rfl | rfl <;> omega

theorem initLoop_eq (K : Kind) (xs : List Arg) (acc : List Int) (h : ∀ a ∈ xs, NoTrunc K a) :
    initLoop K xs acc = (acc ++ Spec.prefixElems K.bits xs, (Spec.firstBad K.bits xs).map fun _ => .runtimeError) := by
  induction xs generalizing acc with
  | nil => simp [initLoop, Spec.prefixElems, Spec.firstBad]
  | cons a as ih =>
    have ht := toElem_eq (h a (by simp))
    rw [elem_isElem] at ht
    rw [initLoop]
    cases hb : Spec.IsElem K.bits a with
    | true =>
      rw [hb, if_pos rfl] at ht
      simp only [ht]
      rw [ih _ fun b hb' => h b (by simp [hb'])]
      simp [Spec.prefixElems, Spec.firstBad, hb]
    | false =>
      rw [hb, if_neg (by simp)] at ht
      simp only [ht]
      simp only [Spec.prefixElems, Spec.firstBad, List.takeWhile_cons, List.find?_cons, hb]
      cases a <;> simp

end Verif.ArrayList
