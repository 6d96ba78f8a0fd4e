import Verif.Lemmas.Stored

/-!
# C01, C02, C48, C49: integer values going in and out of array lists
-/

namespace Verif.Props

open Verif ArrayList

/-! ## C01: values read back -/

/-- C01 for array lists under `BoxOk` (BigIntArrayList; IntArrayList on CPython ≤ 3.11; IntArrayList elsewhere for
1 … 2^30-1): indexing, slicing, pop() and to_list() return the int CPython itself builds for the stored
value. Missing: the other values of IntArrayList on 3.12+ (`C01_exact_iff`, negations), iteration (C20, C27). -/
theorem C01_read_partial (cfg : Cfg) (K : Kind) (l : List Int) (hl : AllFits K l)
    (hb : ∀ v ∈ l, BoxOk cfg K v) (hn : (l.length : Int) ≤ ssizeMax) :
    (∀ (p : Nat) (h : p < l.length), step cfg K l (.get (.idx (.int p))) = .ok l (.int (canon l[p]))) ∧
    (∀ h : l ≠ [], step cfg K l (.pop none) = .ok l.dropLast (.int (canon (l.getLast h)))) ∧
    step cfg K l .toList = .ok l (.pylist (l.map canon)) ∧
    (∀ s i j k, Spec.fields s = .ok (i, j, k) →
      step cfg K l (.get (.slice s)) = .ok l (.pylist ((Spec.pick l (Spec.positions l.length i j k)).map canon))) := by
  have hc : ∀ v ∈ l, box K cfg.py v = canon v := fun v hv => (box_eq_canon_iff cfg K (hl v hv)).2 (hb v hv)
  refine ⟨?_, ?_, ?_, ?_⟩
  · intro p h
    rw [get_at cfg K l p hn h, List.getD_eq_getElem?_getD, List.getElem?_eq_getElem h, Option.getD_some, hc _ (List.getElem_mem h)]
  · intro h
    simp only [step, pop, List.getLast?_eq_some_getLast h]
    rw [hc _ (List.getLast_mem h)]
  · simp only [step, toList]
    rw [map_box_eq cfg K l hl hb]
  · intro s i j k hf
    have hs : step cfg K l (.get (.slice s)) = subscript cfg K l (.slice s) := rfl
    have hsub := pick_sub l (Spec.positions l.length i j k)
    rw [hs, slice_read cfg K l s hn, hf]
    simp only
    rw [map_box_eq cfg K _ (fun v hv => hl v (hsub v hv)) fun v hv => hb v (hsub v hv)]

example : AllFits .i64 [-(2 ^ 63), 0, 2 ^ 63 - 1] ∧
    ∀ v ∈ [-(2 ^ 63), 0, 2 ^ 63 - 1], BoxOk ⟨.ge313, false, true, true, true⟩ .i64 v := by decide
example : AllFits .i32 [-5, 0, 2 ^ 31 - 1] ∧ ∀ v ∈ [-5, 0, 2 ^ 31 - 1], BoxOk ⟨.le311, false, true, true, true⟩ .i32 v := by
  decide

/-- C01, round trip: for a value of the element type under `BoxOk`, `l.append(v); l.pop()` gives back the int `v`
and the old contents, on any list. -/
theorem C01_append_pop_partial (cfg : Cfg) (K : Kind) (l : List Int) (v : Int) (hv : FitsS K.bits v)
    (hb : BoxOk cfg K v) : ∃ l', step cfg K l (.append (.int v)) = .ok l' .none ∧
      step cfg K l' (.pop none) = .ok l (.int (canon v)) := by
  refine ⟨l ++ [v], ?_, ?_⟩
  · simp only [step, append, toElem_int hv]
  · simp only [step, pop, List.getLast?_append, List.getLast?_singleton, Option.some_or]
    rw [(box_eq_canon_iff cfg K hv).2 hb]; simp

/-- C01, exact domain: reading a stored value gives the ordinary int for it if and only if `BoxOk`. -/
theorem C01_exact_iff (cfg : Cfg) (K : Kind) (l : List Int) (p : Nat) (hl : AllFits K l)
    (hn : (l.length : Int) ≤ ssizeMax) (h : p < l.length) :
    step cfg K l (.get (.idx (.int p))) = .ok l (.int (canon l[p])) ↔ BoxOk cfg K l[p] := by
  rw [get_at cfg K l p hn h, List.getD_eq_getElem?_getD, List.getElem?_eq_getElem h, Option.getD_some, ← box_eq_canon_iff cfg K (hl _ (List.getElem_mem h))]
  constructor
  · intro he; injection he with _ h2; injection h2
  · intro he; rw [he]

/-- C01 fails for IntArrayList on CPython 3.12+: every negative element (but -2^31) reads back with a different
value, and negative, zero and values from 2^30 on read back as int objects that violate the interpreter's own
invariant. -/
theorem C01_negation (cfg : Cfg) (hpy : cfg.py ≠ .le311) (v : Int) (hv : FitsS 32 v) :
    ∃ b, step cfg .i32 [v] (.get (.idx (.int 0))) = .ok [v] (.int b) ∧
      (v < 0 → b.value = -(2 ^ 32 + v) ∧ (v ≠ -(2 ^ 31) → b.value ≠ v) ∧ ¬ b.Normal) ∧ (v = 0 ∨ 2 ^ 30 ≤ v → b.value = v ∧ ¬ b.Normal) := by
  refine ⟨box .i32 cfg.py v, get_at cfg .i32 [v] 0 (show (1 : Int) ≤ ssizeMax by decide) (by simp), ?_⟩
  have hb : box .i32 cfg.py v = ⟨if v < 0 then -1 else 1, [(v % 2 ^ 32).toNat]⟩ := by
    unfold box fromInt
    cases h : cfg.py with
    | le311 => exact absurd h hpy
    | _ => rfl
  rw [fits32] at hv
  rw [hb]
  constructor
  · intro hneg
    have : (v % 2 ^ 32).toNat = v + 2 ^ 32 := by omega
    simp only [PyLong.value, digitsVal, if_pos hneg]
    rw [Nat.mul_zero, Nat.add_zero, this]
    refine ⟨by omega, fun _ => by omega, fun hn => ?_⟩
    have := hn.1 (v % 2 ^ 32).toNat (by simp)
    omega
  · rintro (rfl | h)
    · refine ⟨rfl, fun hn => ?_⟩
      exact hn.2.1 rfl
    · refine ⟨?_, fun hn => ?_⟩
      · simp only [PyLong.value, digitsVal, if_neg (show ¬ v < 0 by omega)]
        omega
      · have := hn.1 (v % 2 ^ 32).toNat (by simp)
        omega

example : FitsS 32 (-1) ∧ PyVer.v312 ≠ .le311 := by decide

/-! ## C02: nothing else is stored -/

/-- Class invariant: whatever the call (also failing or misbehaving ones) and its arguments, if the process
survives the call all elements are values of the element type. List operands of the same class satisfy the
invariant themselves. -/
theorem C02_invariant (cfg : Cfg) (K : Kind) (l l' : List Int) (op : Op) (hl : AllFits K l)
    (hsame : ∀ v, op = .extend (.same v) ∨ op = .iadd (.same v) → AllFits K v)
    (h : (step cfg K l op).state? = some l') : AllFits K l' := by
  have h0 : FitsS K.bits 0 := by cases K <;> decide
  by_cases hop : isSliceSet op = true
  · cases op with
    | set k v =>
      cases k with
      | idx a => cases hop
      | slice s =>
        refine slice_all (P := FitsS K.bits) cfg K l s (some v) (toElem_fits K) ?_ hl l' h
        intro x
        unfold rebox
        simp only
        split
        · exact wrapS_fits K _
        · cases K <;> decide
    | _ => cases hop
  · refine step_all (P := FitsS K.bits) cfg K l op (by simpa using hop) hl hl (fun _ _ => h0) hsame ?_ ?_ l' h
    · intro a _ v hv
      have := toElem_fits K a
      rw [hv] at this; exact this
    · intro i a _ v hv
      rw [parseElem_eq] at hv
      cases he : Spec.elem K.bits a with
      | ok w => rw [he] at hv; cases hv; exact elem_fits he
      | error e => rw [he] at hv; cases hv

/-- … hence after any history. -/
theorem C02_invariant_history (cfg : Cfg) (K : Kind) (ops : List Op) (l : List Int) (hl : AllFits K l)
    (hsame : ∀ op ∈ ops, ∀ v, op = .extend (.same v) ∨ op = .iadd (.same v) → AllFits K v) :
    ∀ o ∈ run cfg K l ops, ∀ l', o.state? = some l' → AllFits K l' := by
  induction ops generalizing l with
  | nil => intro o ho; simp [run] at ho
  | cons op ops ih =>
    intro o ho l' hl'
    rw [run] at ho
    rcases List.mem_cons.1 ho with rfl | ho
    · exact C02_invariant cfg K l l' op hl (hsame op (by simp)) hl'
    · cases hs : (step cfg K l op).state? with
      | none => rw [hs] at ho; simp at ho
      | some l2 =>
        rw [hs] at ho
        exact ih l2 (C02_invariant cfg K l l2 op hl (hsame op (by simp)) hs)
          (fun op' hop' => hsame op' (by simp [hop'])) o ho l' hl'

example : (step ⟨.ge313, false, true, true, true⟩ .i32 [1] (.append (.int (2 ^ 32 + 5)))).state? = some [1, 5] := by
  decide

/-- C02 outside slice assignment: if no argument is silently truncated (always so for BigIntArrayList, `noTrunc_i64`; `insert` is not
restricted), every element after the call was in the list before or is an integer the call offered. Missing:
IntArrayList arguments in the 64-bit but not the 32-bit range, slice assignment (negations below). -/
theorem C02_no_foreign_partial (cfg : Cfg) (K : Kind) (l l' : List Int) (op : Op) (hl : AllFits K l)
    (hop : ∀ s v, op ≠ .set (.slice s) v)
    (ht : ∀ a ∈ Spec.storedArgs op, NoTrunc K a)
    (h : (step cfg K l op).state? = some l') : ∀ x ∈ l', x ∈ l ∨ x ∈ Spec.offered l op := by
  have hs : isSliceSet op = false := by
    unfold isSliceSet
    split
    · exact absurd rfl (hop _ _)
    · rfl
  have hsrc : ∀ s a v, a ∈ Spec.srcArgs s → Spec.intOf a = some v → v ∈ Spec.srcInts l s := by
    intro s a v ha hv
    cases s <;> simp only [Spec.srcArgs] at ha <;> first
      | exact List.mem_filterMap.2 ⟨a, ha, hv⟩
      | exact absurd ha (by simp)
  refine step_all (P := fun x => x ∈ l ∨ x ∈ Spec.offered l op) cfg K l op hs hl (fun x hx => .inl hx)
    ?_ ?_ ?_ ?_ l' h
  · rintro a rfl; exact .inr (by simp [Spec.offered])
  · rintro v (rfl | rfl) x hx <;> exact .inr hx
  · intro a ha v hv
    have hi := offered_of_toElem (ht a ha) hv
    refine .inr ?_
    cases op with
    | append b => simp [Spec.storedArgs] at ha; subst ha; simp [Spec.offered, hi]
    | extend s => exact hsrc s a v ha hi
    | iadd s => exact hsrc s a v ha hi
    | set k w =>
      cases k with
      | slice s => exact absurd rfl (hop _ _)
      | idx i =>
        cases w with
        | inl b => simp [Spec.storedArgs] at ha; subst ha; simp [Spec.offered, hi]
        | inr b => simp [Spec.storedArgs] at ha
    | _ => simp [Spec.storedArgs] at ha
  · rintro i a rfl v hv
    rw [parseElem_eq] at hv
    refine .inr ?_
    cases a with
    | other => simp [Spec.elem] at hv
    | int x | index x =>
      simp only [Spec.elem] at hv
      by_cases hx : Spec.InRange K.bits x
      · rw [if_pos hx] at hv; cases hv; simp [Spec.offered, Spec.intOf]
      · rw [if_neg hx] at hv; cases hv

example : NoTrunc .i32 (.int 7) ∧ NoTrunc .i32 (.int (2 ^ 70)) ∧ NoTrunc .i64 (.int (2 ^ 63)) := by decide

/-- C02, the refusal: append, insert, item assignment, extend and += with an integer outside the element range
among their arguments raise an exception, if no argument is silently truncated (always so for BigIntArrayList). -/
theorem C02_refused_partial (cfg : Cfg) (K : Kind) (l : List Int) (op : Op) (a : Arg) (v : Int)
    (hv : Spec.intOf a = some v) (hr : ¬ FitsS K.bits v) (ht : ∀ b ∈ Spec.storedArgs op, NoTrunc K b)
    (hop : a ∈ Spec.storedArgs op ∨ ∃ i, op = .insert i a)
    (hkey : ∀ w, op ≠ .set (.idx .other) w) : ∃ l' e, step cfg K l op = .exc l' e := by
  have hbad : Spec.IsElem K.bits a = false := by
    cases a with
    | other => rfl
    | int x | index x =>
      simp only [Spec.intOf, Option.some.injEq] at hv; subst hv
      exact decide_eq_false hr
  have helem : ∃ e, Spec.elem K.bits a = .error e := by
    rw [elem_isElem, hbad]; exact ⟨_, rfl⟩
  obtain ⟨e0, he0⟩ := helem
  have hext : ∀ s r, a ∈ Spec.srcArgs s → (∀ b ∈ Spec.srcArgs s, NoTrunc K b) →
      ∃ l' e, extendWith K l s r = .exc l' e := by
    intro s r ha hn
    have hfb : ∀ xs, a ∈ xs → ∃ e, Spec.firstBad K.bits xs = some e := by
      intro xs hx
      unfold Spec.firstBad
      have : xs.find? (fun a => !Spec.IsElem K.bits a) ≠ none := by
        rw [ne_eq, List.find?_eq_none]
        intro h
        exact absurd (h a hx) (by simp [hbad])
      split
      · contradiction
      · exact ⟨_, rfl⟩
      · exact ⟨_, rfl⟩
    cases s with
    | same _ | self | notIterable => simp [Spec.srcArgs] at ha
    | list xs | tuple xs | seq xs | seqNoLen xs =>
      obtain ⟨e, he⟩ := hfb xs ha
      simp only [extendWith, extendLoop_eq K xs l hn, he]
      exact ⟨_, _, rfl⟩
    | iter xs f =>
      obtain ⟨e, he⟩ := hfb xs ha
      simp only [extendWith, extendLoop_eq K xs l hn, he]
      exact ⟨_, _, rfl⟩
  rcases hop with ha | ⟨i, rfl⟩
  · cases op with
    | append b =>
      simp [Spec.storedArgs] at ha; subst ha
      simp only [step, append, toElem_eq (ht a (by simp [Spec.storedArgs])), he0]
      exact ⟨_, _, rfl⟩
    | extend s => exact hext s _ ha ht
    | iadd s => exact hext s _ ha ht
    | set k w =>
      cases k with
      | slice s => simp [Spec.storedArgs] at ha
      | idx i =>
        cases w with
        | inr b => simp [Spec.storedArgs] at ha
        | inl b =>
          simp [Spec.storedArgs] at ha; subst ha
          have hset : ∀ j, ∃ l' e, setItem K l j (some a) = .exc l' e := by
            intro j
            rw [setItem_eq]
            split
            · exact ⟨_, _, rfl⟩
            · simp only [toElem_eq (ht a (by simp [Spec.storedArgs])), he0]
              exact ⟨_, _, rfl⟩
          simp only [step, assSubscript]
          split
          · next heq => cases heq; exact absurd rfl (hkey (.inl a))
          · split
            · exact ⟨_, _, rfl⟩
            · exact hset _
          · next heq => cases heq
    | _ => simp [Spec.storedArgs] at ha
  · simp only [step, ArrayList.insert, parseElem_eq, he0]
    split
    · exact ⟨_, _, rfl⟩
    · exact ⟨_, _, rfl⟩
    · next heq => cases heq

/-- C02 fails for IntArrayList: every integer that fits 64 but not 32 bits is accepted by append and stored as a
different value. -/
theorem C02_truncation_negation (cfg : Cfg) (l : List Int) (v : Int) (h64 : FitsS 64 v) (h32 : ¬ FitsS 32 v) :
    ∃ w, w ≠ v ∧ step cfg .i32 l (.append (.int v)) = .ok (l ++ [w]) .none := by
  refine ⟨wrapS 32 v, fun h => h32 (h ▸ wrapS_fits .i32 v), ?_⟩
  simp only [step, append, toElem, asLong, if_pos h64]; rfl

example : FitsS 64 (2 ^ 31) ∧ ¬ FitsS 32 (2 ^ 31) := by decide

/-- C02 fails for slice assignment on both classes: an integer beyond 64 bits raises OverflowError, but -1, which
nobody offered, has replaced the element. -/
theorem C02_slice_negation (cfg : Cfg) (K : Kind) (x v : Int) (h64 : ¬ FitsS 64 v) :
    step cfg K [x] (.set (.slice ⟨none, none, none⟩) (.inr (.list [.int v]))) = .exc [-1] .overflowError := by
  have hu : sliceUnpack ⟨none, none, none⟩ = .ok (0, ssizeMax, 1) := rfl
  have ha : adjustIndices (([x] : List Int).length : Int) 0 ssizeMax 1 = (0, 1, 1) := by
    simp only [List.length_cons, List.length_nil]; decide
  have ht : toElem K (.int v) = (-1, some .overflowError) := by
    simp only [toElem, asLong, if_neg h64, wrapS_neg_one]
  simp only [step, assSubscript, hu, ha]
  simp [Src.isSequence, srcSize, assignLoop, srcItem, ht]

example : ¬ FitsS 64 (2 ^ 63) := by decide

/-! ## C48: the fast conversions -/

/-- C48 for `PyFast_AsInt` on 3.12+: the value whenever it is a C int, else OverflowError. -/
theorem C48_asInt_312 (py : PyVer) (hpy : py ≠ .le311) (v : Int) :
    asInt py (canon v) = if FitsS 32 v then (v, none) else (-1, some .overflowError) := by
  cases py with
  | le311 => exact absurd rfl hpy
  | _ => simp only [asInt, canon_value]

/-- C48 for `PyFast_AsInt` on ≤ 3.11, magnitudes below 2^30. -/
theorem C48_asInt_311_partial (v : Int) (h : v.natAbs < 2 ^ 30) : asInt .le311 (canon v) = (v, none) := by
  rcases Int.lt_trichotomy v 0 with h0 | rfl | h0
  · have hs := Int.sign_eq_neg_one_of_neg h0
    have hw : wrapS 32 (v.natAbs : Int) = v.natAbs := wrapS_of_fits .i32 (by simp only [Kind.bits, fits32]; omega)
    simp only [asInt, canon, hs, digits30_small (show 0 < v.natAbs by omega) h]
    simp [hw]; omega
  · rfl
  · have hs := Int.sign_eq_one_of_pos h0
    have hw : wrapS 32 (v.natAbs : Int) = v.natAbs := wrapS_of_fits .i32 (by simp only [Kind.bits, fits32]; omega)
    simp only [asInt, canon, hs, digits30_small (show 0 < v.natAbs by omega) h]
    simp [hw]; omega

/-- C48 fails for `PyFast_AsInt` on ≤ 3.11: every C int of magnitude 2^30 or more is converted to another
value, without an exception. -/
theorem C48_asInt_negation (v : Int) (h : 2 ^ 30 ≤ v.natAbs) : ∃ w, w ≠ v ∧ asInt .le311 (canon v) = (w, none) := by
  have hd : digits30 v.natAbs = v.natAbs % 2 ^ 30 :: digits30 (v.natAbs / 2 ^ 30) := by
    rw [digits30, dif_neg (by omega)]
  have hlt : v.natAbs % 2 ^ 30 < 2 ^ 30 := Nat.mod_lt _ (by decide)
  have hw : wrapS 32 ((v.natAbs % 2 ^ 30 : Nat) : Int) = (v.natAbs % 2 ^ 30 : Nat) :=
    wrapS_of_fits .i32 (by simp only [Kind.bits, fits32]; omega)
  rcases Int.lt_trichotomy v 0 with h0 | rfl | h0
  · refine ⟨-((v.natAbs % 2 ^ 30 : Nat) : Int), by omega, ?_⟩
    simp only [asInt, canon, Int.sign_eq_neg_one_of_neg h0, hd, hw]
    simp
  · simp at h
  · refine ⟨((v.natAbs % 2 ^ 30 : Nat) : Int), by omega, ?_⟩
    simp only [asInt, canon, Int.sign_eq_one_of_pos h0, hd, hw]
    simp

example : FitsS 32 (2 ^ 30) ∧ 2 ^ 30 ≤ (2 ^ 30 : Int).natAbs := by decide

/-- C48 for `PyFast_AsShort` / `PyFast_AsChar` on ≤ 3.11 (every representable value). -/
theorem C48_asSmall_311 (bits : Nat) (hb : bits = 8 ∨ bits = 16) (v : Int) (hv : FitsS bits v) :
    asSmall bits .le311 (canon v) = v := by
  have habs := fits_small_abs hb hv
  have hw : wrapS 32 (v.natAbs : Int) = v.natAbs := wrapS_of_fits .i32 (by simp only [Kind.bits, fits32]; omega)
  rcases Int.lt_trichotomy v 0 with h0 | rfl | h0
  · simp only [asSmall, canon, Int.sign_eq_neg_one_of_neg h0, digits30_small (show 0 < v.natAbs by omega) habs]
    simp only [hw, show ((-1 : Int) < 0) = True by simp, if_true]
    rw [show -(v.natAbs : Int) = v by omega]
    exact wrapS_small bits hb hv
  · rfl
  · simp only [asSmall, canon, Int.sign_eq_one_of_pos h0, digits30_small (show 0 < v.natAbs by omega) habs]
    simp only [show ((1 : Int) < 0) = False by simp, if_false]
    rw [show (v.natAbs : Int) = v by omega]
    exact wrapS_small bits hb hv

/-- C48 for `PyFast_AsShort` / `PyFast_AsChar` on 3.12+, non-negative values. -/
theorem C48_asSmall_312_partial (bits : Nat) (hb : bits = 8 ∨ bits = 16) (py : PyVer) (hpy : py ≠ .le311) (v : Int)
    (hv : FitsS bits v) (h0 : 0 ≤ v) : asSmall bits py (canon v) = v := by
  have habs := fits_small_abs hb hv
  have : ((digits30 v.natAbs).headD 0 : Int) = v := by
    by_cases hz : v = 0
    · subst hz; simp [digits30]
    · rw [digits30_small (by omega) habs]; simp only [List.headD_cons]; omega
  cases py with
  | le311 => exact absurd rfl hpy
  | _ => simp only [asSmall, canon, this]; exact wrapS_small bits hb hv

/-- C48 fails for `PyFast_AsShort` / `PyFast_AsChar` on 3.12+: every negative value but the smallest loses its
sign. -/
theorem C48_asSmall_negation (bits : Nat) (hb : bits = 8 ∨ bits = 16) (py : PyVer) (hpy : py ≠ .le311) (v : Int)
    (hv : FitsS bits v) (hmin : v ≠ -(2 ^ (bits - 1))) (h0 : v < 0) : asSmall bits py (canon v) = -v := by
  have habs := fits_small_abs hb hv
  have : ((digits30 v.natAbs).headD 0 : Int) = -v := by
    rw [digits30_small (by omega) habs]; simp only [List.headD_cons]; omega
  have hv' : FitsS bits (-v) := by
    unfold FitsS at *; rcases hb with rfl | rfl <;> omega
  cases py with
  | le311 => exact absurd rfl hpy
  | _ => simp only [asSmall, canon, this]; exact wrapS_small bits hb hv'

example : FitsS 8 (-7) ∧ (-7 : Int) ≠ -(2 ^ (8 - 1)) := by decide

/-! ## C49: the constructor -/

/-- C49 (array lists): the constructor on an iterable of values of the element type yields exactly these; on a
list of the same class its elements. -/
theorem C49_init (K : Kind) (s : Src) (xs : List Arg) (hs : Spec.items [] s = .ok (xs, none)) (hself : s ≠ .self)
    (hx : ∀ a ∈ xs, Spec.IsElem K.bits a = true) : init K (some (.inr s)) = .ok (xs.map Spec.argVal) () := by
  have hl : ∀ ys, (∀ a ∈ ys, Spec.IsElem K.bits a = true) → initLoop K ys [] = (ys.map Spec.argVal, none) := by
    intro ys hy
    have hnt : ∀ a ∈ ys, NoTrunc K a := by
      intro a ha
      have := hy a ha
      cases a with
      | other => trivial
      | int v | index v => intro _; exact of_decide_eq_true this
    rw [initLoop_eq K ys [] hnt]
    have h1 : ys.takeWhile (Spec.IsElem K.bits) = ys := by
      clear hnt
      induction ys with
      | nil => rfl
      | cons b bs ih =>
        rw [List.takeWhile_cons, if_pos (hy b (by simp)), ih fun c hc => hy c (by simp [hc])]
    have h2 : ys.find? (fun a => !Spec.IsElem K.bits a) = none := by
      rw [List.find?_eq_none]; intro a ha; simp [hy a ha]
    simp [Spec.prefixElems, Spec.firstBad, h1, h2]
  cases s with
  | same v =>
    simp only [Spec.items, Except.ok.injEq, Prod.mk.injEq, and_true] at hs
    subst hs
    simp only [init, List.map_map]
    rw [show (Spec.argVal ∘ Arg.int) = id from rfl, List.map_id]
  | self => exact absurd rfl hself
  | list ys | tuple ys | seq ys | seqNoLen ys =>
    simp only [Spec.items, Except.ok.injEq, Prod.mk.injEq, and_true] at hs
    subst hs
    simp only [init, hl _ hx]
  | iter ys f =>
    simp only [Spec.items, Except.ok.injEq, Prod.mk.injEq] at hs
    obtain ⟨rfl, rfl⟩ := hs
    simp only [init, hl _ hx]
  | notIterable => cases hs

example : Spec.items [] (.iter [.int 5, .index (-3)] none) = .ok ([.int 5, .index (-3)], none) ∧
    ∀ a ∈ [Arg.int 5, .index (-3)], Spec.IsElem Kind.i32.bits a = true := ⟨rfl, by decide⟩

/-- C49: an object that is no integer, or an integer beyond 64 bits, anywhere in the iterable makes the
constructor raise RuntimeError (if it is the first failure). -/
theorem C49_init_refused (K : Kind) (s : Src) (xs : List Arg) (hs : Spec.items [] s = .ok (xs, none))
    (hsame : ∀ v, s ≠ .same v) (hself : s ≠ .self) (hx : ∀ a ∈ xs, NoTrunc K a) (a : Arg) (ha : a ∈ xs)
    (hbad : Spec.IsElem K.bits a = false) : ∃ l, init K (some (.inr s)) = .exc l .runtimeError := by
  have hl : ∀ ys, a ∈ ys → (∀ b ∈ ys, NoTrunc K b) → ∃ l, initLoop K ys [] = (l, some .runtimeError) := by
    intro ys hm hy
    rw [initLoop_eq K ys [] hy]
    refine ⟨Spec.prefixElems K.bits ys, ?_⟩
    rw [List.nil_append]
    congr 1
    unfold Spec.firstBad
    have : ys.find? (fun a => !Spec.IsElem K.bits a) ≠ none := by
      rw [ne_eq, List.find?_eq_none]
      intro h
      exact absurd (h a hm) (by simp [hbad])
    split
    · contradiction
    · rfl
    · rfl
  cases s with
  | same v => exact absurd rfl (hsame v)
  | self => exact absurd rfl hself
  | list ys | tuple ys | seq ys | seqNoLen ys =>
    simp only [Spec.items, Except.ok.injEq, Prod.mk.injEq, and_true] at hs
    subst hs
    obtain ⟨l, h⟩ := hl _ ha hx
    exact ⟨l, by simp only [init, h]⟩
  | iter ys f =>
    simp only [Spec.items, Except.ok.injEq, Prod.mk.injEq] at hs
    obtain ⟨rfl, rfl⟩ := hs
    obtain ⟨l, h⟩ := hl _ ha hx
    exact ⟨l, by simp only [init, h]⟩
  | notIterable => cases hs

example : Spec.IsElem Kind.i32.bits .other = false ∧ NoTrunc .i32 .other := by decide

/-- C49 / C02: the IntArrayList constructor stores every integer that fits 64 but not 32 bits as another value. -/
theorem C49_truncation_negation (v : Int) (h64 : FitsS 64 v) (h32 : ¬ FitsS 32 v) :
    ∃ w, w ≠ v ∧ init .i32 (some (.inr (.list [.int v]))) = .ok [w] () := by
  refine ⟨wrapS 32 v, fun h => h32 (h ▸ wrapS_fits .i32 v), ?_⟩
  simp only [init, initLoop, toElem, asLong, if_pos h64]; rfl

end Verif.Props
