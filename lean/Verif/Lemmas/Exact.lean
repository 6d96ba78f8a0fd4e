import Verif.Spec.Exact
import Verif.Lemmas.ArrayListStep

/-! Helper lemmas: the domain `Exact` of the array lists is exact; everything but slice assignment. -/

namespace Verif.ArrayList

open Verif

/-! ### Items -/

/-- The exception of an object that fits no machine word. -/
def raised : Arg → Exc
  | .other => .typeError
  | _ => .overflowError

theorem isElem_mono {K : Kind} {a : Arg} (h : Spec.IsElem K.bits a = true) : Spec.IsElem 64 a = true := by
  cases a with
  | other => cases h
  | int v | index v => exact decide_eq_true (K.fits64_of (of_decide_eq_true h : FitsS K.bits v))

theorem toElem_word {K : Kind} {a : Arg} (h : Spec.IsElem 64 a = true) :
    toElem K a = (wrapS K.bits (Spec.argVal a), none) := by
  cases a with
  | other => cases h
  | int v | index v =>
    have : FitsS 64 v := of_decide_eq_true h
    simp only [toElem, asLong, if_pos this]
    rfl

theorem toElem_raised {K : Kind} {a : Arg} (h : Spec.IsElem 64 a = false) : toElem K a = (-1, some (raised a)) := by
  cases a with
  | other => simp [toElem, asLong, raised, wrapS_neg_one]
  | int v | index v =>
    have : ¬ FitsS 64 v := of_decide_eq_false h
    simp only [toElem, asLong, if_neg this, wrapS_neg_one, raised]

theorem sameLow_iff {K : Kind} {v x : Int} (hx : FitsS K.bits x) : SameLow K v x ↔ wrapS K.bits v = x := by
  have e := wrapS_of_fits K hx
  unfold wrapS at *
  unfold SameLow
  rw [← e, Int.bmod_eq_bmod_iff_bmod_sub_eq_zero, ← Int.dvd_iff_bmod_eq_zero, e]
  push_cast
  exact Iff.rfl

theorem harmless_iff {K : Kind} {l : List Int} {v : Int} (hf : AllFits K l) :
    Harmless K l v ↔ FitsS 64 v ∧ wrapS K.bits v ∉ l := by
  unfold Harmless
  refine and_congr_right fun _ => ⟨fun h hm => h _ hm ((sameLow_iff (hf _ hm)).2 rfl), fun h x hx hs => ?_⟩
  rw [(sameLow_iff (hf x hx)).1 hs] at h
  exact h hx

theorem elem_of {b : Nat} {a : Arg} (h : Spec.IsElem b a = true) : Spec.elem b a = .ok (Spec.argVal a) := by
  rw [elem_isElem, if_pos h]

theorem elem_bad {b : Nat} {a : Arg} (h : Spec.IsElem b a = false) : ∃ e, Spec.elem b a = .error e := by
  rw [elem_isElem, if_neg (by rw [h]; exact Bool.false_ne_true)]
  exact ⟨_, rfl⟩

theorem noTrunc_iff {K : Kind} {a : Arg} : NoTrunc K a ↔ (Spec.IsElem 64 a = true → Spec.IsElem K.bits a = true) := by
  cases a with
  | other => exact ⟨fun _ h => (by cases h), fun _ => trivial⟩
  | int v | index v =>
    simp only [NoTrunc, Spec.IsElem, decide_eq_true_eq]
    exact Iff.rfl

theorem append_exact (K : Kind) (l : List Int) (a : Arg) :
    Agrees (append K l a) (Spec.step K.bits l (.append a)) ↔ NoTrunc K a := by
  refine ⟨fun h => ?_, append_ok K l a⟩
  rw [noTrunc_iff]
  intro h64
  refine Classical.byContradiction fun hk => ?_
  obtain ⟨e, he⟩ := elem_bad (Bool.eq_false_iff.2 hk)
  simp only [append, toElem_word h64, Spec.step, he, Agrees] at h

/-! ### extend, += -/

theorem extendLoop_len (K : Kind) (xs : List Arg) : ∀ l, l.length ≤ (extendLoop K xs l).1.length := by
  induction xs with
  | nil => intro l; exact Nat.le_refl _
  | cons a as ih =>
    intro l
    rw [extendLoop]
    rcases toElem K a with ⟨v, _ | e⟩
    · have := ih (l ++ [v])
      simp only [List.length_append, List.length_cons, List.length_nil] at this
      exact Nat.le_trans (by omega) this
    · exact Nat.le_refl _

theorem narrow_cons {K : Kind} {a : Arg} {as : List Arg} (h : Spec.IsElem 64 a = true) :
    NarrowPrefix K (a :: as) ↔ Spec.IsElem K.bits a = true ∧ NarrowPrefix K as := by
  unfold NarrowPrefix
  rw [List.takeWhile_cons, if_pos h]
  simp

theorem narrow_raised {K : Kind} {a : Arg} {as : List Arg} (h : Spec.IsElem 64 a = false) : NarrowPrefix K (a :: as) := by
  unfold NarrowPrefix
  rw [List.takeWhile_cons, if_neg (by rw [h]; exact Bool.false_ne_true)]
  simp

theorem prefix_cons_pos {b : Nat} {a : Arg} {as : List Arg} (h : Spec.IsElem b a = true) :
    Spec.prefixElems b (a :: as) = Spec.argVal a :: Spec.prefixElems b as ∧
    Spec.firstBad b (a :: as) = Spec.firstBad b as := by
  unfold Spec.prefixElems Spec.firstBad
  rw [List.takeWhile_cons, if_pos h, List.find?_cons_of_neg (by simp [h])]
  exact ⟨rfl, rfl⟩

theorem prefix_cons_neg {b : Nat} {a : Arg} {as : List Arg} (h : Spec.IsElem b a = false) :
    Spec.prefixElems b (a :: as) = [] ∧ Spec.firstBad b (a :: as) = some (raised a) := by
  unfold Spec.prefixElems Spec.firstBad
  rw [List.takeWhile_cons, if_neg (by rw [h]; exact Bool.false_ne_true), List.find?_cons_of_pos (by simp [h])]
  refine ⟨rfl, ?_⟩
  cases a <;> rfl

theorem extendLoop_narrow (K : Kind) (xs : List Arg) : ∀ l, NarrowPrefix K xs →
    extendLoop K xs l = (l ++ Spec.prefixElems K.bits xs, Spec.firstBad K.bits xs) := by
  induction xs with
  | nil => intro l _; simp [extendLoop, Spec.prefixElems, Spec.firstBad]
  | cons a as ih =>
    intro l h
    rw [extendLoop]
    by_cases h64 : Spec.IsElem 64 a = true
    · obtain ⟨h1, h2⟩ := (narrow_cons h64).1 h
      obtain ⟨p1, p2⟩ := prefix_cons_pos (as := as) h1
      rw [toElem_isElem h1, p1, p2]
      dsimp only
      rw [ih _ h2]
      simp
    · have h64 := Bool.eq_false_iff.2 h64
      obtain ⟨p1, p2⟩ := prefix_cons_neg (b := K.bits) (as := as)
        (Bool.eq_false_iff.2 fun hk => absurd (isElem_mono hk) (by rw [h64]; exact Bool.false_ne_true))
      rw [toElem_raised h64, p1, p2]
      simp

theorem extendLoop_wide (K : Kind) (xs : List Arg) : ∀ l, ¬ NarrowPrefix K xs →
    l.length + (Spec.prefixElems K.bits xs).length < (extendLoop K xs l).1.length := by
  induction xs with
  | nil => intro l h; exact absurd (by unfold NarrowPrefix; simp) h
  | cons a as ih =>
    intro l h
    rw [extendLoop]
    by_cases h64 : Spec.IsElem 64 a = true
    · rw [narrow_cons h64] at h
      rw [toElem_word h64]
      dsimp only
      by_cases hk : Spec.IsElem K.bits a = true
      · rw [(prefix_cons_pos (as := as) hk).1]
        have := ih (l ++ [wrapS K.bits (Spec.argVal a)]) (fun hn => h ⟨hk, hn⟩)
        simp only [List.length_append, List.length_cons, List.length_nil] at this ⊢
        omega
      · rw [(prefix_cons_neg (as := as) (Bool.eq_false_iff.2 hk)).1]
        have := extendLoop_len K as (l ++ [wrapS K.bits (Spec.argVal a)])
        simp only [List.length_append, List.length_cons, List.length_nil] at this ⊢
        omega
    · exact absurd (narrow_raised (Bool.eq_false_iff.2 h64)) h

theorem extendItems_exact (K : Kind) (l : List Int) (xs : List Arg) (f : Option Exc) (r : Ret) (v : Spec.Val)
    (hrv : RetIs r v) :
    Agrees (match extendLoop K xs l, f with
      | (l', some e), _ => .exc l' e
      | (l', none), none => .ok l' r
      | (l', none), some e => .exc l' e)
     (match Spec.firstBad K.bits xs, f with
    | some e, _ => (l ++ Spec.prefixElems K.bits xs, .error e)
    | none, some e => (l ++ Spec.prefixElems K.bits xs, .error e)
    | none, none => (l ++ Spec.prefixElems K.bits xs, .ok v)) ↔ NarrowPrefix K xs := by
  constructor
  · intro h
    refine Classical.byContradiction fun hn => ?_
    have hw := extendLoop_wide K xs l hn
    generalize extendLoop K xs l = o at h hw
    generalize Spec.firstBad K.bits xs = fb at h
    obtain ⟨o, _ | e⟩ := o <;> cases fb <;> cases f <;> first
      | exact absurd h id
      | (have := congrArg List.length h.1
         simp only [List.length_append] at this
         simp only at hw
         omega)
  · intro h
    rw [extendLoop_narrow K xs l h]
    cases Spec.firstBad K.bits xs with
    | none =>
      cases f with
      | none => exact ⟨rfl, hrv⟩
      | some e => exact ⟨rfl, rfl⟩
    | some e => exact ⟨rfl, rfl⟩

theorem extendList_exact (K : Kind) (l : List Int) (xs : List Arg) (r : Ret) (v : Spec.Val) (hrv : RetIs r v) :
    Agrees (match extendLoop K xs l with
      | (l', none) => .ok l' r
      | (l', some e) => .exc l' e)
     (match Spec.firstBad K.bits xs, (none : Option Exc) with
    | some e, _ => (l ++ Spec.prefixElems K.bits xs, .error e)
    | none, some e => (l ++ Spec.prefixElems K.bits xs, .error e)
    | none, none => (l ++ Spec.prefixElems K.bits xs, .ok v)) ↔ NarrowPrefix K xs := by
  rw [← extendItems_exact K l xs none r v hrv]
  rcases extendLoop K xs l with ⟨o, _ | e⟩ <;> exact Iff.rfl

/-! ### Searching -/

theorem firstAt_none {l : List Int} {v : Int} : Spec.firstAt l 0 l.length v = none ↔ v ∉ l := by
  unfold Spec.firstAt
  rw [List.find?_eq_none]
  constructor
  · intro h hv
    obtain ⟨p, hp, e⟩ := List.getElem_of_mem hv
    have := h p (List.mem_range.2 hp)
    apply this
    rw [decide_eq_true_eq]
    exact ⟨by omega, by omega, by rw [List.getElem?_eq_getElem hp, e]⟩
  · intro h p hp hd
    rw [decide_eq_true_eq] at hd
    exact h (List.mem_of_getElem? hd.2.2)

theorem notMem_of_wide {K : Kind} {l : List Int} {v : Int} (hf : AllFits K l) (hv : ¬ FitsS K.bits v) : v ∉ l :=
  fun h => hv (hf v h)

theorem removeFirst_none {l : List Int} {v : Int} (h : v ∉ l) : Spec.removeFirst l v = none := by
  unfold Spec.removeFirst
  rw [firstAt_none.2 h]
  rfl

/-- `remove` when the specified list raises ValueError. -/
theorem remove_miss (K : Kind) (l : List Int) (a : Arg) :
    Agrees (remove K l a) (l, .error .valueError) ↔ Spec.IsElem 64 a = true ∧ wrapS K.bits (Spec.argVal a) ∉ l := by
  unfold remove
  by_cases h64 : Spec.IsElem 64 a = true
  · rw [toElem_word h64]
    dsimp only
    have := findFrom_eq l 0 l.length (wrapS K.bits (Spec.argVal a)) (Nat.le_refl _)
    push_cast at this
    rw [this]
    cases hq : Spec.firstAt l 0 l.length (wrapS K.bits (Spec.argVal a)) with
    | none => exact ⟨fun _ => ⟨h64, firstAt_none.1 hq⟩, fun _ => ⟨rfl, rfl⟩⟩
    | some p =>
      refine ⟨fun h => absurd h id, fun h => ?_⟩
      rw [firstAt_none.2 h.2] at hq
      cases hq
  · rw [toElem_raised (Bool.eq_false_iff.2 h64)]
    dsimp only
    refine ⟨fun h => ?_, fun h => absurd h.1 h64⟩
    have := h.2
    cases a <;> cases this

theorem remove_exact (cfg : Cfg) (K : Kind) (l : List Int) (a : Arg) (hf : AllFits K l) :
    Agrees (remove K l a) (Spec.step K.bits l (.remove a)) ↔ Exact cfg K l (.remove a) := by
  cases a with
  | other =>
    refine (remove_miss K l .other).trans ⟨fun h => ?_, fun h => absurd h id⟩
    cases h.1
  | index v =>
    refine (remove_miss K l (.index v)).trans ?_
    show _ ↔ Harmless K l v
    rw [harmless_iff hf]
    exact and_congr_left fun _ => decide_eq_true_iff
  | int v =>
    show _ ↔ (FitsS K.bits v ∨ Harmless K l v)
    by_cases hv : FitsS K.bits v
    · exact ⟨fun _ => .inl hv, fun _ => remove_ok K l v hv⟩
    · have e : Spec.step K.bits l (.remove (.int v)) = (l, .error .valueError) := by
        simp only [Spec.step, Spec.asInt?, Option.bind_some, removeFirst_none (notMem_of_wide hf hv)]
      rw [e, remove_miss, harmless_iff hf]
      refine ⟨fun h => .inr ⟨of_decide_eq_true h.1, h.2⟩, ?_⟩
      rintro (h | h)
      · exact absurd h hv
      · exact ⟨decide_eq_true h.1, h.2⟩

theorem count_miss (K : Kind) (l : List Int) (a : Arg) :
    Agrees (count K l a) (l, .ok (.int 0)) ↔ Spec.IsElem 64 a = true ∧ wrapS K.bits (Spec.argVal a) ∉ l := by
  unfold count
  by_cases h64 : Spec.IsElem 64 a = true
  · rw [toElem_word h64]
    simp only [ite_self, Agrees, RetIs, true_and, h64]
    constructor
    · intro h hm
      have := canon_inj h
      have := List.count_pos_iff.2 hm
      omega
    · intro h
      rw [List.count_eq_zero.2 h]
      rfl
  · rw [toElem_raised (Bool.eq_false_iff.2 h64)]
    simp only [if_true, Agrees]
    exact ⟨fun h => absurd h id, fun h => absurd h.1 h64⟩

theorem count_exact (cfg : Cfg) (K : Kind) (l : List Int) (a : Arg) (hf : AllFits K l) :
    Agrees (count K l a) (Spec.step K.bits l (.count a)) ↔ Exact cfg K l (.count a) := by
  cases a with
  | other =>
    refine (count_miss K l .other).trans ⟨fun h => ?_, fun h => absurd h id⟩
    cases h.1
  | index v =>
    refine (count_miss K l (.index v)).trans ?_
    show _ ↔ Harmless K l v
    rw [harmless_iff hf]
    exact and_congr_left fun _ => decide_eq_true_iff
  | int v =>
    show _ ↔ (FitsS K.bits v ∨ Harmless K l v)
    by_cases hv : FitsS K.bits v
    · exact ⟨fun _ => .inl hv, fun _ => count_ok K l v hv⟩
    · have e : Spec.step K.bits l (.count (.int v)) = (l, .ok (.int 0)) := by
        have h0 : l.filter (fun x => decide (x = v)) = [] := by
          rw [List.filter_eq_nil_iff]
          intro x hx h
          rw [decide_eq_true_eq] at h
          exact notMem_of_wide hf hv (h ▸ hx)
        simp only [Spec.step, Spec.asInt?, Option.map_some, h0, Option.getD_some]
        rfl
      rw [e, count_miss, harmless_iff hf]
      refine ⟨fun h => .inr ⟨of_decide_eq_true h.1, h.2⟩, ?_⟩
      rintro (h | h)
      · exact absurd h hv
      · exact ⟨decide_eq_true h.1, h.2⟩

theorem contains_exact (cfg : Cfg) (K : Kind) (l : List Int) (a : Arg) (hf : AllFits K l) :
    Agrees (contains K l a) (Spec.step K.bits l (.contains a)) ↔ Exact cfg K l (.contains a) := by
  cases a with
  | other => exact ⟨fun _ => trivial, fun _ => contains_ok K l .other nofun⟩
  | index v => exact ⟨fun _ => trivial, fun _ => contains_ok K l (.index v) nofun⟩
  | int v =>
    show _ ↔ (FitsS K.bits v ∨ Harmless K l v)
    by_cases hv : FitsS K.bits v
    · exact ⟨fun _ => .inl hv, fun _ => contains_ok K l (.int v) (fun w hw => by cases hw; exact hv)⟩
    · have e : Spec.step K.bits l (.contains (.int v)) = (l, .ok (.bool false)) := by
        simp only [Spec.step, Spec.asInt?, Option.any_some, decide_eq_false (notMem_of_wide hf hv)]
      rw [e, harmless_iff hf]
      unfold contains
      dsimp only
      by_cases h64 : FitsS 64 v
      · rw [toElem_word (a := .int v) (decide_eq_true h64)]
        dsimp only [Spec.argVal]
        have := findFrom_eq l 0 l.length (wrapS K.bits v) (Nat.le_refl _)
        push_cast at this
        rw [this]
        simp only [Agrees, RetIs, true_and, h64, hv, false_or]
        rw [← firstAt_none]
        cases Spec.firstAt l 0 l.length (wrapS K.bits v) <;> simp
      · rw [toElem_raised (a := .int v) (decide_eq_false h64)]
        simp only [Agrees]
        refine ⟨fun h => absurd h id, ?_⟩
        rintro (h | h)
        · exact hv h
        · exact h64 h.1

theorem extendWith_exact (K : Kind) (l : List Int) (s : Src) (r : Ret) (v : Spec.Val) (hrv : RetIs r v)
    (hp : Src.Possible K s) :
    Agrees (extendWith K l s r) (Spec.absorb K.bits l s v) ↔ (match s with
      | .self => False
      | .same _ => v = .none
      | .list xs | .tuple xs | .seq xs | .seqNoLen xs | .iter xs _ => NarrowPrefix K xs
      | .notIterable => True) := by
  cases s with
  | self => exact ⟨fun h => absurd h id, fun h => absurd h id⟩
  | same w =>
    obtain ⟨h1, h2⟩ := prefix_map_int (b := K.bits) (v := w) hp
    simp only [extendWith, Spec.absorb, Spec.items, h1, h2, Agrees, true_and]
    cases v <;> simp [RetIs]
  | notIterable => exact ⟨fun _ => trivial, fun _ => ⟨rfl, rfl⟩⟩
  | list xs | tuple xs | seq xs | seqNoLen xs => exact extendList_exact K l xs r v hrv
  | iter xs f => exact extendItems_exact K l xs f r v hrv

/-! ### index -/

theorem bound_word {o : Option Arg} (ho : BoundOk o) :
    ∀ x, o = some x → x = .other ∨ ∃ v, Spec.word .overflowError x = .ok v := by
  rintro x rfl
  cases x with
  | other => exact .inl rfl
  | int v | index v => exact .inr ⟨v, if_pos (show FitsS 64 v from ho)⟩

theorem parseN_wide {v : Int} (h : ¬ FitsS 64 v) :
    parseN (.int v) = (-1, some .overflowError) ∧ parseN (.index v) = (-1, some .overflowError) := by
  have : ¬ Spec.InRange 64 v := h
  constructor <;> simp only [parseN_eq, Spec.word, if_neg this]

theorem bound_bad {o : Option Arg} (ho : ¬ BoundOk o) :
    ∃ x, o = some x ∧ parseN x = (-1, some .overflowError) ∧ ∃ v, Spec.field o = .ok v := by
  rcases o with _ | a
  · exact absurd trivial ho
  · cases a with
    | other => exact absurd trivial ho
    | int v => exact ⟨_, rfl, (parseN_wide ho).1, _, rfl⟩
    | index v => exact ⟨_, rfl, (parseN_wide ho).2, _, rfl⟩

theorem spec_index_exc {b : Nat} {l : List Int} {a : Arg} {i j : Option Arg} {o : List Int}
    (h : Agrees (.exc o .overflowError) (Spec.step b l (.index a i j))) : False := by
  simp only [Spec.step] at h
  cases hi : Spec.field i with
  | error e =>
    simp only [hi, Agrees] at h
    rcases i with _ | x
    · cases hi
    · cases x <;> cases hi; cases h.2
  | ok i' =>
    cases hj : Spec.field j with
    | error e =>
      simp only [hi, hj, Agrees] at h
      rcases j with _ | x
      · cases hj
      · cases x <;> cases hj; cases h.2
    | ok j' =>
      simp only [hi, hj] at h
      revert h
      cases (Spec.asInt? a).bind _ with
      | none => intro h; cases h.2
      | some p => intro h; exact h

theorem field_other {i : Option Arg} {e : Exc} (h : Spec.field i = .error e) : i = some .other ∧ e = .typeError := by
  rcases i with _ | x
  · cases h
  · cases x <;> cases h; exact ⟨rfl, rfl⟩

/-- The call with an `__index__` object is the one with the int. -/
theorem index_same (K : Kind) (l : List Int) (v : Int) (i j : Option Arg) :
    index K l (.index v) i j = index K l (.int v) i j := by
  have : parseElem K (.index v) = parseElem K (.int v) := by rw [parseElem_eq, parseElem_eq]; rfl
  simp only [index, this]

theorem index_int_exact (K : Kind) (l : List Int) (v : Int) (i j : Option Arg) :
    Agrees (index K l (.int v) i j) (Spec.step K.bits l (.index (.int v) i j)) ↔
      FitsS K.bits v ∧ (i = some .other ∨ (BoundOk i ∧ BoundOk j)) := by
  by_cases hv : FitsS K.bits v
  · by_cases hi : BoundOk i
    · by_cases hj : BoundOk j
      · exact ⟨fun _ => ⟨hv, .inr ⟨hi, hj⟩⟩, fun _ => index_ok K l v i j hv (bound_word hi) (bound_word hj)⟩
      · have he : parseElem K (.int v) = (v, none) := by
          rw [parseElem_eq]
          simp only [Spec.elem, if_pos (show Spec.InRange K.bits v from hv)]
        obtain ⟨x, rfl, hx, w, hw⟩ := bound_bad hj
        rcases word_field i (bound_word hi) with ⟨h1, y, rfl, h2⟩ | ⟨rfl, h1⟩ | ⟨y, u, rfl, h1, h2⟩
        · obtain rfl : y = .other := by
            cases y with
            | other => rfl
            | int v | index v => cases h1
          refine ⟨fun _ => ⟨hv, .inl rfl⟩, fun _ => ?_⟩
          simp [index, he, h2, Spec.step, h1, Agrees]
        · simp only [index, he, hx]
          refine ⟨fun h => absurd h spec_index_exc, ?_⟩
          rintro ⟨_, h | h⟩
          · cases h
          · exact absurd h.2 hj
        · simp only [index, he, h2, hx]
          refine ⟨fun h => absurd h spec_index_exc, ?_⟩
          rintro ⟨_, h | h⟩
          · cases Option.some.inj h; cases h1
          · exact absurd h.2 hj
    · have he : parseElem K (.int v) = (v, none) := by
        rw [parseElem_eq]
        simp only [Spec.elem, if_pos (show Spec.InRange K.bits v from hv)]
      obtain ⟨x, rfl, hx, w, hw⟩ := bound_bad hi
      simp only [index, he, hx]
      refine ⟨fun h => absurd h spec_index_exc, ?_⟩
      rintro ⟨_, h | h⟩
      · cases Option.some.inj h; exact absurd trivial hi
      · exact absurd h.1 hi
  · have he : parseElem K (.int v) = (-1, some .overflowError) := by
      rw [parseElem_eq]
      simp only [Spec.elem, if_neg (show ¬ Spec.InRange K.bits v from hv)]
    simp only [index, he]
    exact ⟨fun h => absurd h spec_index_exc, fun h => absurd h.1 hv⟩

theorem index_exact (cfg : Cfg) (K : Kind) (l : List Int) (a : Arg) (i j : Option Arg) :
    Agrees (index K l a i j) (Spec.step K.bits l (.index a i j)) ↔ Exact cfg K l (.index a i j) := by
  cases a with
  | int v => exact index_int_exact K l v i j
  | other =>
    have he : parseElem K .other = (-1, some .typeError) := by rw [parseElem_eq]; rfl
    simp only [index, he, Spec.step]
    show _ ↔ (i = some .other ∨ j = some .other)
    cases hi : Spec.field i with
    | error e =>
      obtain ⟨rfl, rfl⟩ := field_other hi
      simp [Agrees]
    | ok i' =>
      have h1 : i ≠ some .other := by rintro rfl; cases hi
      cases hj : Spec.field j with
      | error e =>
        obtain ⟨rfl, rfl⟩ := field_other hj
        simp [Agrees]
      | ok j' =>
        have h2 : j ≠ some .other := by rintro rfl; cases hj
        simp [Agrees, h1, h2, Spec.asInt?]
  | index v =>
    have hint := index_int_exact K l v i j
    rw [index_same]
    show _ ↔ FitsS K.bits v ∧ (i = some .other ∨ (BoundOk i ∧ BoundOk j ∧ Absent l i j v))
    simp only [Spec.step] at hint ⊢
    unfold Absent
    cases hi : Spec.field i with
    | error e =>
      simp only [hi] at hint ⊢
      rw [hint]
      obtain ⟨rfl, rfl⟩ := field_other hi
      simp
    | ok i' =>
      have h1 : i ≠ some .other := by rintro rfl; cases hi
      cases hj : Spec.field j with
      | error e =>
        simp only [hi, hj, and_true] at hint ⊢
        exact hint
      | ok j' =>
        simp only [hi, hj, Spec.asInt?, Option.bind_some, Option.bind_none, h1, false_or] at hint ⊢
        revert hint
        cases hfa : Spec.firstAt l _ _ v with
        | none => simp only [and_true]; exact id
        | some p =>
          simp only [reduceCtorEq, and_false, iff_false]
          intro hint h
          by_cases hg : FitsS K.bits v ∧ BoundOk i ∧ BoundOk j
          · have := hint.2 hg
            generalize index K l (.int v) i j = o at *
            cases o <;> first | exact h | exact this
          · -- the model raises OverflowError
            by_cases hv : FitsS K.bits v
            · have he : parseElem K (.int v) = (v, none) := by
                rw [parseElem_eq]
                simp only [Spec.elem, if_pos (show Spec.InRange K.bits v from hv)]
              by_cases hbi : BoundOk i
              · have hbj : ¬ BoundOk j := fun hbj => hg ⟨hv, hbi, hbj⟩
                obtain ⟨y, rfl, hy, _⟩ := bound_bad hbj
                rcases word_field i (bound_word hbi) with ⟨h3, _⟩ | ⟨rfl, h3⟩ | ⟨z, u, rfl, h3, h4⟩
                · rw [hi] at h3; cases h3
                · simp only [index, he, hy] at h; cases h.2
                · simp only [index, he, hy, h4] at h; cases h.2
              · obtain ⟨y, rfl, hy, _⟩ := bound_bad hbi
                simp only [index, he, hy] at h; cases h.2
            · have he : parseElem K (.int v) = (-1, some .overflowError) := by
                rw [parseElem_eq]
                simp only [Spec.elem, if_neg (show ¬ Spec.InRange K.bits v from hv)]
              simp only [index, he] at h; cases h.2

/-! ### Positions -/

theorem position_zero (i : Int) : Spec.position 0 i = none := by
  unfold Spec.position
  rw [if_neg (by omega), if_neg (by omega)]

/-- Handing out the element at a position. -/
theorem boxAt_exact (cfg : Cfg) (K : Kind) (l : List Int) (i : Int) (f : Nat → List Int) (hf : AllFits K l) :
    Agrees (match Spec.position l.length i with
        | none => .exc l .indexError
        | some p => .ok (f p) (.int (box K cfg.py (l.getD p 0))))
      (match Spec.position l.length i with
        | none => (l, .error .indexError)
        | some p => (f p, .ok (.int (l.getD p 0)))) ↔ BoxAt cfg K l i := by
  unfold BoxAt
  cases hp : Spec.position l.length i with
  | none => simp [Agrees]
  | some p =>
    simp only [Agrees, RetIs, true_and]
    exact box_eq_canon_iff cfg K (hf _ (getD_mem l (position_lt hp)))

theorem pop_exact (cfg : Cfg) (K : Kind) (l : List Int) (a : Option Arg) (hf : AllFits K l) :
    Agrees (pop cfg K l a) (Spec.step K.bits l (.pop a)) ↔ Exact cfg K l (.pop a) := by
  by_cases ha : ∃ v, a = some (.index v)
  · obtain ⟨v, rfl⟩ := ha
    show _ ↔ (l = [] ∧ FitsS 64 v)
    by_cases hl : l = []
    · subst hl
      simp only [pop, List.getLast?_nil, Spec.step, Spec.word, List.length_nil, position_zero]
      by_cases h64 : FitsS 64 v
      · simp only [if_pos (show Spec.InRange 64 v from h64), Agrees, h64, and_self]
      · simp only [if_neg (show ¬ Spec.InRange 64 v from h64), Agrees, h64]
        simp
    · have hg : ∃ x, l.getLast? = some x := by
        cases h : l.getLast? with
        | none => exact absurd (List.getLast?_eq_none_iff.1 h) hl
        | some x => exact ⟨x, rfl⟩
      obtain ⟨x, hg⟩ := hg
      simp only [pop, hg, asSsize, hl, false_and, iff_false, Spec.step, Spec.word]
      by_cases h64 : FitsS 64 v
      · simp only [if_pos (show Spec.InRange 64 v from h64)]
        cases Spec.position l.length v <;> simp [Agrees]
      · simp only [if_neg (show ¬ Spec.InRange 64 v from h64)]
        simp [Agrees]
  · rw [pop_eq cfg K l a (fun v h => ha ⟨v, h⟩)]
    simp only [Spec.step]
    rcases a with _ | a
    · show _ ↔ BoxAt cfg K l (-1)
      rw [← boxAt_exact cfg K l (-1) (fun p => l.take p ++ l.drop (p + 1)) hf]
      by_cases hl : l = []
      · subst hl
        simp only [if_true, List.length_nil, position_zero]
      · rw [if_neg hl]
        exact Iff.rfl
    · cases a with
      | index v => exact absurd ⟨v, rfl⟩ ha
      | other =>
        show _ ↔ l ≠ []
        by_cases hl : l = []
        · simp [hl, Spec.word, Agrees]
        · simp [hl, Spec.word, Agrees]
      | int v =>
        show _ ↔ (if FitsS 64 v then BoxAt cfg K l v else l ≠ [])
        by_cases h64 : FitsS 64 v
        · rw [if_pos h64]
          simp only [Spec.word, if_pos (show Spec.InRange 64 v from h64)]
          rw [← boxAt_exact cfg K l v (fun p => l.take p ++ l.drop (p + 1)) hf]
          by_cases hl : l = []
          · subst hl
            simp only [if_true, List.length_nil, position_zero]
          · rw [if_neg hl]
            exact Iff.rfl
        · rw [if_neg h64]
          simp only [Spec.word, if_neg (show ¬ Spec.InRange 64 v from h64)]
          by_cases hl : l = []
          · simp [hl, Agrees]
          · simp [hl, Agrees]

theorem get_exact (cfg : Cfg) (K : Kind) (l : List Int) (k : Key) (hf : AllFits K l) (hn : (l.length : Int) ≤ ssizeMax) :
    Agrees (subscript cfg K l k) (Spec.step K.bits l (.get k)) ↔ Exact cfg K l (.get k) := by
  cases k with
  | idx a =>
    cases a with
    | other => exact ⟨fun h => absurd h id, fun h => absurd h id⟩
    | int v | index v =>
      show _ ↔ (FitsS 64 v → BoxAt cfg K l v)
      simp only [subscript, Spec.step, asSsizeIndex_eq, Spec.word]
      by_cases h64 : FitsS 64 v
      · simp only [if_pos (show Spec.InRange 64 v from h64), getItem_eq]
        exact (boxAt_exact cfg K l v (fun _ => l) hf).trans ⟨fun h _ => h, fun h => h h64⟩
      · simp only [if_neg (show ¬ Spec.InRange 64 v from h64)]
        exact ⟨fun _ h => absurd h h64, fun _ => ⟨rfl, rfl⟩⟩
  | slice s =>
    simp only [Spec.step, slice_read cfg K l s hn, Exact]
    cases Spec.fields s with
    | error e => simp [Agrees]
    | ok f =>
      obtain ⟨i, j, k⟩ := f
      simp only [Agrees, RetIs, true_and, List.map_inj_left]
      exact forall₂_congr fun v hv => box_eq_canon_iff cfg K (hf v (pick_sub _ _ v hv))

/-- Storing an item at an existing position. -/
theorem store_exact (K : Kind) (l : List Int) (x : Arg) (f : Int → List Int) :
    Agrees (match toElem K x with
        | (_, some e) => .exc l e
        | (v, none) => .ok (f v) .none)
      (match Spec.elem K.bits x with
        | .error e => (l, .error e)
        | .ok v => (f v, .ok .none)) ↔ NoTrunc K x := by
  constructor
  · intro h
    rw [noTrunc_iff]
    intro h64
    refine Classical.byContradiction fun hk => ?_
    obtain ⟨e, he⟩ := elem_bad (Bool.eq_false_iff.2 hk)
    simp only [toElem_word h64, he, Agrees] at h
  · intro h
    rw [toElem_eq h]
    cases Spec.elem K.bits x with
    | error e => exact ⟨rfl, rfl⟩
    | ok v => exact ⟨rfl, trivial⟩

theorem set_idx_exact (cfg : Cfg) (K : Kind) (l : List Int) (a : Arg) (v : Arg ⊕ Src) :
    Agrees (assSubscript cfg K l (.idx a) (some v)) (Spec.step K.bits l (.set (.idx a) v)) ↔
      Exact cfg K l (.set (.idx a) v) := by
  have key : ∀ (i : Int) (x : Arg), Agrees (match Spec.word .indexError (.int i) with
        | .error e => .exc l e
        | .ok i => setItem K l i (some x))
      (match Spec.word .indexError (.int i) with
        | .error e => (l, .error e)
        | .ok i =>
          match Spec.position l.length i with
          | none => (l, .error .indexError)
          | some p =>
            match Spec.elem K.bits x with
            | .error e => (l, .error e)
            | .ok v => (l.take p ++ v :: l.drop (p + 1), .ok .none)) ↔
      (FitsS 64 i → Spec.position l.length i ≠ none → NoTrunc K x) := by
    intro i x
    by_cases h64 : FitsS 64 i
    · simp only [Spec.word, if_pos (show Spec.InRange 64 i from h64), setItem_eq]
      cases hp : Spec.position l.length i with
      | none => simp [Agrees]
      | some p =>
        refine (store_exact K l x (fun v => l.take p ++ v :: l.drop (p + 1))).trans ?_
        simp [h64]
    · simp only [Spec.word, if_neg (show ¬ Spec.InRange 64 i from h64)]
      exact ⟨fun _ h => absurd h h64, fun _ => ⟨rfl, rfl⟩⟩
  have hm : ∀ (a : Arg) (x : Arg), (match asSsizeIndex a with
        | (_, some e) => Out.exc l e
        | (i, none) => setItem K l i (some x)) = (match Spec.word .indexError a with
        | .error e => .exc l e
        | .ok i => setItem K l i (some x)) := by
    intro a x
    rw [asSsizeIndex_eq]
    cases Spec.word .indexError a <;> rfl
  cases a with
  | other => exact ⟨fun h => absurd h id, fun h => absurd h id⟩
  | int i | index i =>
    cases v with
    | inl x => exact (iff_of_eq (congrArg (Agrees · _) (hm _ x))).trans (key i x)
    | inr s =>
      refine (iff_of_eq (congrArg (Agrees · _) (hm _ .other))).trans ((key i .other).trans ?_)
      exact ⟨fun _ _ _ => trivial, fun _ _ _ => trivial⟩

theorem del_exact (cfg : Cfg) (K : Kind) (l : List Int) (k : Key) :
    Agrees (assSubscript cfg K l k none) (Spec.step K.bits l (.del k)) ↔ Exact cfg K l (.del k) := by
  cases k with
  | idx a =>
    cases a with
    | other => exact ⟨fun h => absurd h id, fun h => absurd rfl h⟩
    | int v | index v =>
      refine ⟨fun _ => nofun, fun _ => ?_⟩
      simp only [assSubscript, Spec.step, asSsizeIndex_eq]
      cases Spec.word .indexError _ with
      | error e => simp [Agrees]
      | ok i =>
        simp only [setItem_eq]
        cases hp : Spec.position l.length i <;> simp [Agrees, RetIs]
  | slice s =>
    simp only [assSubscript, Spec.step, Exact]
    rw [(sliceUnpack_fields s).1]
    cases hs : Spec.fields s with
    | error e => simp [Agrees]
    | ok f => simp [Agrees]

theorem boxes_iff (cfg : Cfg) (K : Kind) (l : List Int) (hf : AllFits K l) :
    l.map (box K cfg.py) = l.map canon ↔ ∀ v ∈ l, BoxOk cfg K v := by
  rw [List.map_inj_left]
  exact forall₂_congr fun v hv => box_eq_canon_iff cfg K (hf v hv)

theorem add_exact (cfg : Cfg) (K : Kind) (l : List Int) (s : Src) (hf : AllFits K l) :
    Agrees (add cfg K l s) (Spec.step K.bits l (.add s)) ↔ Exact cfg K l (.add s) := by
  cases s with
  | same | self => exact ⟨fun h => absurd h id, fun h => absurd h id⟩
  | list xs =>
    simp only [add, Spec.step, Agrees, RetIs, true_and, and_true, toList, Exact]
    exact boxes_iff cfg K l hf
  | _ => simp [add, Spec.step, Agrees, Exact]

theorem mul_exact (cfg : Cfg) (K : Kind) (l : List Int) (n : Int) :
    Agrees (mul cfg K l n) (l, .ok (.list (Spec.copies l n))) ↔
      ∀ t, t < n.toNat → CopyAligned cfg K.size (l.length * t * K.size) l.length := by
  by_cases h : ∀ t, t < n.toNat → CopyAligned cfg K.size (l.length * t * K.size) l.length
  · simp only [(mul_eq cfg K l n).1 h, Agrees, RetIs, and_self, true_iff]
    exact h
  · refine ⟨fun ha => ?_, fun h' => absurd h' h⟩
    have : ∃ t, t < n.toNat ∧ ¬ CopyAligned cfg K.size (l.length * t * K.size) l.length := by
      refine Classical.byContradiction fun hne => h fun t ht => Classical.byContradiction fun hc => hne ⟨t, ht, hc⟩
    rw [(mul_eq cfg K l n).2 this] at ha
    exact absurd ha id

theorem rmul_exact (cfg : Cfg) (K : Kind) (l : List Int) (a : Arg) :
    Agrees (rmul cfg K l a) (Spec.step K.bits l (.rmul a)) ↔ Exact cfg K l (.rmul a) := by
  cases a with
  | int n | index n =>
    simp only [rmul, asLong, Spec.step, Exact]
    by_cases h64 : FitsS 64 n
    · rw [if_pos h64, if_pos (show Spec.InRange 64 n from h64)]
      simp only [h64, forall_const]
      exact mul_exact cfg K l n
    · rw [if_neg h64, if_neg (show ¬ Spec.InRange 64 n from h64)]
      simp [Agrees, h64]
  | other => simp [rmul, asLong, Spec.step, Agrees, Exact]

theorem imul_exact (cfg : Cfg) (K : Kind) (l : List Int) (n : Int) :
    Agrees (imul cfg K l n) (Spec.step K.bits l (.imul n)) ↔ (n ≤ 1 ∨ l = []) := by
  by_cases h : n ≤ 1 ∨ l = []
  · have e : imul cfg K l n = .ok (Spec.copies l n) .self := by
      rcases h with h | rfl
      · exact imul_small cfg K l n h
      · exact imul_nil cfg K n
    simp only [Spec.step, e, Agrees, RetIs, and_self, h]
  · obtain ⟨u, hu⟩ := imul_ub cfg K l n (by omega) (fun hl => h (.inr hl))
    rw [hu]
    exact ⟨fun ha => absurd ha id, fun h' => absurd h' h⟩

/-! ### Comparison -/

theorem eqDecided_nil (K : Kind) (xs : List Arg) : ¬ EqDecided K [] xs := by
  rintro ⟨i, hi, _⟩
  exact absurd hi (Nat.not_lt_zero _)

theorem eqDecided_cons {K : Kind} {x : Int} {l : List Int} {a : Arg} {xs : List Arg} :
    EqDecided K (x :: l) (a :: xs) ↔
      Spec.IsElem 64 a = true ∧ (¬ SameLow K (Spec.argVal a) x ∨ EqDecided K l xs) := by
  constructor
  · rintro ⟨i, hi, hall, hne⟩
    refine ⟨hall a (by simp), ?_⟩
    cases i with
    | zero => exact .inl hne
    | succ i =>
      refine .inr ⟨i, by simpa using hi, fun b hb => hall b ?_, ?_⟩
      · rw [List.take_succ_cons]; exact List.mem_cons_of_mem _ hb
      · simpa using hne
  · rintro ⟨ha, h | ⟨i, hi, hall, hne⟩⟩
    · exact ⟨0, by simp, by simpa using ha, by simpa using h⟩
    · refine ⟨i + 1, by simpa using hi, ?_, by simpa using hne⟩
      intro b hb
      rw [List.take_succ_cons] at hb
      rcases List.mem_cons.1 hb with rfl | hb
      · exact ha
      · exact hall b hb

/-- The equality loop answers "no" without an exception exactly when the comparison is decided. -/
theorem eqLoop_exact (K : Kind) (l : List Int) : ∀ (xs : List Arg), AllFits K l → xs.length = l.length →
    (eqLoop l (xs.map (toElem K)) = (false, none) ↔ EqDecided K l xs) := by
  induction l with
  | nil =>
    intro xs _ hl
    obtain rfl := List.length_eq_zero_iff.1 hl
    exact ⟨fun h => (by cases h), fun h => absurd h (eqDecided_nil K _)⟩
  | cons x l ih =>
    intro xs hf hl
    cases xs with
    | nil => cases hl
    | cons a xs =>
      have ih := ih xs (fun v hv => hf v (List.mem_cons_of_mem _ hv)) (by simpa using hl)
      rw [eqDecided_cons, ← ih, sameLow_iff (hf x (by simp)), List.map_cons]
      by_cases h64 : Spec.IsElem 64 a = true
      · rw [toElem_word h64]
        simp only [eqLoop, h64, true_and]
        by_cases hx : x = wrapS K.bits (Spec.argVal a)
        · simp [hx]
        · simp [hx, Ne.symm hx]
      · rw [toElem_raised (Bool.eq_false_iff.2 h64)]
        simp [eqLoop, h64]

theorem eqLoop_true {l : List Int} : ∀ {ys : List CRes}, ys.length = l.length → (eqLoop l ys).1 = true →
    ys = l.map fun y => (y, none) := by
  induction l with
  | nil => intro ys hl _; exact List.length_eq_zero_iff.1 hl
  | cons x l ih =>
    intro ys hl h
    match ys, hl, h with
    | (y, some e) :: ys, _, h => simp [eqLoop] at h
    | (y, none) :: ys, hl, h =>
      simp only [eqLoop] at h
      by_cases hx : x = y
      · subst hx
        simp only [ne_eq, not_true_eq_false, if_false] at h
        rw [ih (by simpa using hl) h]
        rfl
      · simp [hx] at h

theorem eqLoop_true_none {l : List Int} {ys : List CRes} (hl : ys.length = l.length) (h : (eqLoop l ys).1 = true) :
    eqLoop l ys = (true, none) := by
  rw [eqLoop_true hl h, eqLoop_vals l l rfl, decide_eq_true rfl]

theorem allInts_map (l : List Int) : Spec.allInts (l.map .int) = some l := by
  induction l with
  | nil => rfl
  | cons x l ih =>
    unfold Spec.allInts at ih ⊢
    rw [List.map_cons, List.mapM_cons, ih]
    rfl

theorem allInts_some {xs : List Arg} : ∀ {r : List Int}, Spec.allInts xs = some r → xs = r.map .int := by
  induction xs with
  | nil => intro r h; cases h; rfl
  | cons a xs ih =>
    intro r h
    unfold Spec.allInts at ih h
    rw [List.mapM_cons] at h
    cases a with
    | int v =>
      cases hr : xs.mapM Spec.asInt? with
      | none => rw [hr] at h; cases h
      | some r' =>
        rw [hr] at h
        cases h
        rw [ih hr]
        rfl
    | index | other => cases h

/-- An operand that is no list of ints with the same values: unequal. -/
theorem eq_false_exact (K : Kind) (l : List Int) (xs : List Arg) (hf : AllFits K l) :
    ((if xs.length ≠ l.length then (false, none) else eqLoop l (xs.map (toElem K))) = ((false, none) : Bool × Option Exc)) ↔
      (xs.length ≠ l.length ∨ EqDecided K l xs) := by
  by_cases hl : xs.length = l.length
  · simp only [hl, ne_eq, not_true_eq_false, if_false, false_or]
    exact eqLoop_exact K l xs hf hl
  · simp [hl]

theorem boolOut_agrees {l : List Int} {b b' : Bool} {p : Option Exc} :
    Agrees (boolOut l b p) (l, .ok (.bool b')) ↔ (b, p) = (b', none) := by
  cases p with
  | none => simp [boolOut, Agrees, RetIs]
  | some e => simp [boolOut, Agrees]

theorem boolOut_error {l : List Int} {b : Bool} {p : Option Exc} {e : Exc} :
    ¬ Agrees (boolOut l b p) (l, .error e) := by
  cases p <;> simp [boolOut, Agrees]

theorem not_pair {q : Bool × Option Exc} {b : Bool} : ((!q.1, q.2) = (b, none)) ↔ q = (!b, none) := by
  obtain ⟨b', p⟩ := q
  cases b <;> cases b' <;> simp

/-- `==` and `!=` with a list. -/
theorem eq_list_exact (K : Kind) (l : List Int) (xs : List Arg) (hf : AllFits K l) :
    (eq K l (.list xs) = ((match Spec.allInts xs with | some r => decide (l = r) | none => false), none)) ↔
      (xs.length ≠ l.length ∨ xs = l.map .int ∨ EqDecided K l xs) := by
  by_cases hx : xs = l.map .int
  · subst hx
    simp only [allInts_map, decide_true, or_true, true_or, iff_true, eq]
    rw [if_neg (by simp)]
    have : (l.map Arg.int).map (toElem K) = l.map fun y => (y, none) := by
      rw [List.map_map]
      exact List.map_congr_left fun v hv => toElem_int (hf v hv)
    rw [this, eqLoop_vals l l rfl]
    simp
  · have : (match Spec.allInts xs with | some r => decide (l = r) | none => false) = false := by
      cases hr : Spec.allInts xs with
      | none => rfl
      | some r =>
        simp only [decide_eq_false_iff_not]
        rintro rfl
        exact hx (allInts_some hr)
    rw [this]
    simp only [hx, false_or]
    exact eq_false_exact K l xs hf

/-! The order loop -/

theorem ordLoop_pending (op : CmpOp) : ∀ (l : List Int) (ys : List CRes) (e : Exc), (ordLoop op l ys (some e)).2 ≠ none
  | [], _, e => by simp [ordLoop]
  | _ :: _, [], e => by simp [ordLoop]
  | x :: l, (y, e') :: ys, e => by
    rw [ordLoop]
    have : ∃ e'', e'.or (some e) = some e'' := by cases e' <;> exact ⟨_, rfl⟩
    obtain ⟨e'', h⟩ := this
    rw [h]
    split
    · simp
    · exact ordLoop_pending op l ys e''

/-- Without an exception, the loop sees the low bits. -/
theorem ordLoop_low (K : Kind) (op : CmpOp) : ∀ (l r : List Int),
    (ordLoop op l ((r.map .int).map (toElem K)) none).2 = none →
    ordLoop op l ((r.map .int).map (toElem K)) none = ordLoop op l ((r.map (lowBits K)).map fun y => (y, none)) none
  | [], r, _ => by cases r <;> rfl
  | _ :: _, [], _ => rfl
  | x :: l, v :: r, h => by
    rw [List.map_cons, List.map_cons] at h ⊢
    by_cases h64 : FitsS 64 v
    · rw [toElem_word (a := .int v) (decide_eq_true h64), ordLoop] at h ⊢
      rw [List.map_cons, List.map_cons, ordLoop]
      simp only [Spec.argVal, Option.or_none] at h ⊢
      have e : lowBits K v = wrapS K.bits v := rfl
      rw [e]
      by_cases hx : x = wrapS K.bits v
      · simp only [hx, ne_eq, not_true_eq_false, if_false] at h ⊢
        exact ordLoop_low K op l r h
      · simp only [hx, ne_eq, not_false_eq_true, if_true]
    · rw [toElem_raised (a := .int v) (decide_eq_false h64), ordLoop] at h
      split at h
      · cases h
      · exact absurd h (ordLoop_pending op l _ _)

/-- No exception is left exactly when every value that is looked at fits a machine word. -/
theorem ordLoop_clean (K : Kind) (op : CmpOp) : ∀ (l r : List Int), AllFits K l →
    ((ordLoop op l ((r.map .int).map (toElem K)) none).2 = none ↔
      ∀ i, i < l.length → i < r.length → (∀ j, j < i → l.getD j 0 = lowBits K (r.getD j 0)) → FitsS 64 (r.getD i 0))
  | [], r, _ => by
    constructor
    · intro _ i hi; exact absurd hi (Nat.not_lt_zero _)
    · intro _; cases r <;> rfl
  | _ :: _, [], _ => by
    constructor
    · intro _ i _ hi; exact absurd hi (Nat.not_lt_zero _)
    · intro _; rfl
  | x :: l, v :: r, hf => by
    have ih := ordLoop_clean K op l r (fun w hw => hf w (List.mem_cons_of_mem _ hw))
    rw [List.map_cons, List.map_cons]
    by_cases h64 : FitsS 64 v
    · rw [toElem_word (a := .int v) (decide_eq_true h64), ordLoop]
      simp only [Spec.argVal, Option.or_none]
      by_cases hx : x = wrapS K.bits v
      · simp only [hx, ne_eq, not_true_eq_false, if_false]
        rw [ih]
        constructor
        · intro h i hi hr hj
          cases i with
          | zero => exact h64
          | succ i =>
            refine h i (by simpa using hi) (by simpa using hr) fun j hji => ?_
            have := hj (j + 1) (by omega)
            simpa using this
        · intro h i hi hr hj
          have := h (i + 1) (by simpa using hi) (by simpa using hr) fun j hji => by
            cases j with
            | zero => rfl
            | succ j => simpa using hj j (by omega)
          simpa using this
      · simp only [hx, ne_eq, not_false_eq_true, if_true, true_iff]
        intro i hi hr hj
        cases i with
        | zero => exact h64
        | succ i => exact absurd (hj 0 (by omega)) hx
    · rw [toElem_raised (a := .int v) (decide_eq_false h64), ordLoop]
      constructor
      · intro h
        split at h
        · cases h
        · exact absurd h (ordLoop_pending op l _ _)
      · intro h
        exact absurd (h 0 (by simp) (by simp) (fun j hj => absurd hj (Nat.not_lt_zero _))) h64

theorem ord_list_exact (K : Kind) (op : CmpOp) (hop : op = .lt ∨ op = .le ∨ op = .gt ∨ op = .ge) (l r : List Int)
    (hf : AllFits K l) :
    ord K op l (.list (r.map .int)) = (Spec.compare op l r, none) ↔ OrdDecided K op l r := by
  have hc := ordLoop_clean K op l r hf
  unfold OrdDecided
  rw [← hc]
  have e : ord K op l (.list (r.map .int)) = (match ordLoop op l ((r.map .int).map (toElem K)) none with
      | (some b, p) => (b, p)
      | (none, p) => (op.rel l.length ((r.map Arg.int).map (toElem K)).length, p)) := rfl
  rw [e]
  by_cases h : (ordLoop op l ((r.map .int).map (toElem K)) none).2 = none
  · have h1 := ordLoop_vals op hop l (r.map (lowBits K))
    rw [← ordLoop_low K op l r h] at h1
    simp only [h, true_and]
    rw [show ((r.map Arg.int).map (toElem K)).length = (r.map (lowBits K)).length by simp]
    refine (iff_of_eq (congrArg (· = _) h1)).trans ?_
    simp
  · simp only [h, false_and, iff_false]
    generalize ordLoop op l ((r.map .int).map (toElem K)) none = q at h ⊢
    obtain ⟨b | b, p⟩ := q
    · intro h'; exact h (congrArg Prod.snd h')
    · intro h'; exact h (congrArg Prod.snd h')

theorem cmp_exact (cfg : Cfg) (K : Kind) (l : List Int) (op : CmpOp) (s : Src) (hf : AllFits K l) :
    Agrees (compare K op l s) (Spec.step K.bits l (.cmp op s)) ↔ Exact cfg K l (.cmp op s) := by
  have hne : ∀ o : Option (List Int), (match o with | some r => decide (l ≠ r) | none => true) =
      !(match o with | some r => decide (l = r) | none => false) := by
    intro o; cases o <;> simp
  have ho : ∀ op : CmpOp, (op = .lt ∨ op = .le ∨ op = .gt ∨ op = .ge) → ∀ xs,
      (Agrees (boolOut l (ord K op l (.list xs)).1 (ord K op l (.list xs)).2)
        (l, match Spec.allInts xs with
          | some r => .ok (.bool (Spec.compare op l r))
          | none => .error .typeError)) ↔
        (match Spec.allInts xs with | none => False | some r => OrdDecided K op l r) := by
    intro op hop xs
    cases hr : Spec.allInts xs with
    | none =>
      simp only [iff_false]
      exact boolOut_error
    | some r =>
      obtain rfl := allInts_some hr
      dsimp only
      rw [boolOut_agrees]
      exact ord_list_exact K op hop l r hf
  cases s with
  | same v => exact ⟨fun _ => by cases op <;> trivial, fun _ => compare_ints K op l v _ rfl⟩
  | self => exact ⟨fun _ => by cases op <;> trivial, fun _ => compare_ints K op l l _ rfl⟩
  | iter xs f =>
    cases op with
    | eq | ne => exact ⟨fun _ => trivial, fun _ => ⟨rfl, rfl⟩⟩
    | lt | le | gt | ge =>
      refine ⟨fun h => ?_, fun h => absurd h id⟩
      simp only [compare, Spec.step, Spec.cmp] at h
      exact absurd h boolOut_error
  | notIterable =>
    cases op with
    | eq | ne => exact ⟨fun _ => trivial, fun _ => ⟨rfl, rfl⟩⟩
    | lt | le | gt | ge =>
      refine ⟨fun h => ?_, fun h => absurd h id⟩
      simp only [compare, Spec.step, Spec.cmp] at h
      exact absurd h boolOut_error
  | seqNoLen xs =>
    cases op <;> exact ⟨fun h => absurd h id, fun h => absurd h id⟩
  | tuple xs | seq xs =>
    cases op with
    | eq => exact boolOut_agrees.trans (eq_false_exact K l xs hf)
    | ne => exact boolOut_agrees.trans (not_pair.trans (eq_false_exact K l xs hf))
    | lt | le | gt | ge =>
      refine ⟨fun h => ?_, fun h => absurd h id⟩
      simp only [compare, Spec.step, Spec.cmp] at h
      exact absurd h boolOut_error
  | list xs =>
    cases op with
    | eq =>
      refine Iff.trans ?_ (eq_list_exact K l xs hf)
      simp only [Spec.step, Spec.cmp, compare]
      cases Spec.allInts xs with
      | none => exact boolOut_agrees
      | some r => exact boolOut_agrees
    | ne =>
      refine Iff.trans ?_ (eq_list_exact K l xs hf)
      simp only [Spec.step, Spec.cmp, compare]
      cases Spec.allInts xs with
      | none => exact boolOut_agrees.trans not_pair
      | some r =>
        refine boolOut_agrees.trans (not_pair.trans ?_)
        simp [Spec.compare]
    | lt | le | gt | ge =>
      refine Iff.trans ?_ (ho _ (by simp) xs)
      simp only [Spec.step, Spec.cmp, compare]
      cases Spec.allInts xs <;> exact Iff.rfl

end Verif.ArrayList
