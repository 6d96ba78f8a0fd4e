import Verif.Model.Construct
import Verif.Spec.Construct
import Verif.Lemmas.Foreign
import Verif.Lemmas.Ints

/-! # Binding the arguments of a constructor, and its element loops -/

namespace Verif.Construct

open Foreign ArrayList

variable {W : Type}

theorem lookup_iff {l : List (String × Thing W)} (h : (l.map Prod.fst).Nodup) {s : String} {t : Thing W} :
    l.lookup s = some t ↔ (s, t) ∈ l := by
  induction l with
  | nil => simp
  | cons a l ih =>
    obtain ⟨k, u⟩ := a
    simp only [List.map_cons, List.nodup_cons] at h
    have ih := ih h.2
    rw [List.lookup_cons]
    by_cases hk : s = k
    · subst hk
      simp only [beq_self_eq_true, List.mem_cons, Prod.mk.injEq, true_and]
      constructor
      · intro e
        exact .inl (Option.some.inj e).symm
      · rintro (e | e)
        · rw [e]
        · exact (h.1 (List.mem_map.2 ⟨_, e, rfl⟩)).elim
    · have : (s == k) = false := by simpa using hk
      simp [this, ih, hk]

theorem pick_iff {c : Call W} (h : Proper c) {i : Nat} {s : String} {t : Thing W} :
    pick c i s = some t ↔ IsArg c i s t := by
  unfold pick IsArg
  rcases hi : c.args[i]? with _ | u
  · have : c.args.length ≤ i := List.getElem?_eq_none_iff.mp hi
    simp [lookup_iff h, this]
  · have : i < c.args.length := by
      rcases Nat.lt_or_ge i c.args.length with h | h
      · exact h
      · rw [List.getElem?_eq_none h] at hi; cases hi
    simp only [Option.some.injEq]
    constructor
    · exact .inl
    · rintro (e | ⟨e, _⟩)
      · exact e
      · omega

theorem pick_none {c : Call W} (h : Proper c) {i : Nat} {s : String} :
    pick c i s = none ↔ ∀ t, ¬ IsArg c i s t := by
  constructor
  · intro e t ht
    rw [(pick_iff h).2 ht] at e
    cases e
  · intro e
    rcases hp : pick c i s with _ | t
    · rfl
    · exact (e t ((pick_iff h).1 hp)).elim

/-- The keywords that are used are those that name a parameter no positional argument stands for. -/
theorem used_le {c : Call W} (h : Proper c) : ∀ {names : List String} {i : Nat}, names.Nodup →
    used c i names = (c.kwargs.filter fun k => decide (k.1 ∈ names.drop (c.args.length - i))).length
  | [], i, _ => by
    have : (c.kwargs.filter fun k => decide (k.1 ∈ ([] : List String).drop (c.args.length - i))) = [] := by
      rw [List.filter_eq_nil_iff]; simp
    rw [this]
    rfl
  | s :: ss, i, hn => by
    have hn' := List.nodup_cons.1 hn
    rw [used]
    by_cases hi : i < c.args.length
    · rw [if_pos hi, Nat.zero_add, used_le h hn'.2]
      obtain ⟨m, hm⟩ : ∃ m, c.args.length - i = m + 1 := ⟨c.args.length - i - 1, by omega⟩
      have : c.args.length - (i + 1) = m := by omega
      rw [hm, this, List.drop_succ_cons]
    · rw [if_neg hi, used_le h hn'.2]
      have e1 : c.args.length - i = 0 := by omega
      have e2 : c.args.length - (i + 1) = 0 := by omega
      rw [e1, e2, List.drop_zero, List.drop_zero]
      have key : ∀ l : List (String × Thing W), (l.map Prod.fst).Nodup →
          (if (l.lookup s).isSome then 1 else 0) + (l.filter fun k => decide (k.1 ∈ ss)).length =
            (l.filter fun k => decide (k.1 ∈ s :: ss)).length := by
        intro l hl
        induction l with
        | nil => simp
        | cons a l ih =>
          obtain ⟨k, u⟩ := a
          simp only [List.map_cons, List.nodup_cons] at hl
          have ih := ih hl.2
          rw [List.lookup_cons]
          by_cases hk : s = k
          · subst hk
            have hno : l.lookup s = none := by
              rcases hx : l.lookup s with _ | t
              · rfl
              · exact (hl.1 (List.mem_map.2 ⟨_, (lookup_iff hl.2).1 hx, rfl⟩)).elim
            rw [hno] at ih
            simp only [Option.isSome_none, Bool.false_eq_true, if_false, Nat.zero_add] at ih
            simp only [beq_self_eq_true, Option.isSome_some, if_true, List.filter_cons, List.mem_cons, true_or,
              decide_true, List.length_cons, hn'.1, decide_false, Bool.false_eq_true, if_false, ih]
            simp only [List.mem_cons] at ih
            omega
          · have hb : (s == k) = false := by simpa using hk
            have hk' : ¬ k = s := fun e => hk e.symm
            rw [hb]
            dsimp only
            by_cases hks : k ∈ ss
            · have hd : decide (k ∈ s :: ss) = true := by simp [hks]
              simp only [List.filter_cons, hks, decide_true, if_true, hd, List.length_cons]
              omega
            · have hd : decide (k ∈ s :: ss) = false := by simp [hks, hk']
              simp only [List.filter_cons, hks, decide_false, hd, Bool.false_eq_true, if_false]
              exact ih
      exact key c.kwargs h

/-- Parsing finds fault with exactly the calls that do not fit. -/
theorem fits_iff {c : Call W} (h : Proper c) {names : List String} (hn : names.Nodup) :
    Fits names c ↔ ¬ c.args.length + c.kwargs.length > names.length ∧ ¬ used c 0 names < c.kwargs.length := by
  rw [used_le h hn, Nat.sub_zero]
  have hf : (c.kwargs.filter fun k => decide (k.1 ∈ names.drop c.args.length)).length = c.kwargs.length ↔
      ∀ k ∈ c.kwargs, k.1 ∈ names.drop c.args.length := by
    rw [List.length_filter_eq_length_iff]
    simp
  have hle := List.length_filter_le (fun k : String × Thing W => decide (k.1 ∈ names.drop c.args.length)) c.kwargs
  have hs : (∀ k ∈ c.kwargs, k.1 ∈ names.drop c.args.length) → c.kwargs.length ≤ (names.drop c.args.length).length := by
    intro hk
    have : (c.kwargs.map Prod.fst) ⊆ names.drop c.args.length := by
      intro s hs
      obtain ⟨k, hk', rfl⟩ := List.mem_map.1 hs
      exact hk k hk'
    simpa using List.Nodup.length_le_of_subset h this
  unfold Fits
  constructor
  · rintro ⟨h1, h2⟩
    have h3 := hs h2
    have h4 := hf.2 h2
    rw [List.length_drop] at h3
    omega
  · rintro ⟨h1, h2⟩
    refine ⟨by omega, hf.1 (by omega)⟩

/-! ## Converting the elements -/

/-- The conversions of the code against those of the specification: the same int, or both fail. -/
theorem conv_elem (K : Kind) (x : Live W) (w : W) :
    match x.run w with
    | (w', .error e) => conv (toElem K) x w = (w', (-1, some e))
    | (w', .ok v) =>
      match unlessFits K.bits .overflowError v with
      | none => conv (toElem K) x w = (w', (v, none))
      | some e => e = .overflowError ∧ (K = .i64 → ∃ u, conv (toElem K) x w = (w', (u, some .overflowError))) := by
  unfold conv
  rcases x.run w with ⟨w', e | v⟩
  · rfl
  · dsimp only
    have hu : unlessFits K.bits .overflowError v = if FitsS K.bits v then none else some .overflowError := rfl
    rw [hu]
    by_cases hf : FitsS K.bits v
    · rw [if_pos hf]
      have h64 : FitsS 64 v := by
        cases K
        · unfold FitsS at hf ⊢
          dsimp only [Kind.bits] at hf
          omega
        · exact hf
      simp [toElem, asLong, h64, Verif.wrapS_of_fits K hf]
    · rw [if_neg hf]
      refine ⟨rfl, ?_⟩
      rintro rfl
      have h64 : ¬ FitsS 64 v := hf
      exact ⟨wrapS Kind.i64.bits (-1), by simp only [toElem, asLong, h64, if_false]⟩

/-- What the code makes of the outcome that the specification asks for: the same list, or (some) exception at the same
point. -/
def Follows (K : Kind) (acc : List Int) (spec : W × Except Exc (List Int)) (o : Out (W × List Int) Unit) : Prop :=
  match spec with
  | (w, .ok vs) => o = .ok (w, acc ++ vs) ()
  | (w, .error e) => K = .i64 ∨ e ≠ .overflowError → ∃ l e', o = .exc (w, l) e'

theorem fastLoop_follows {K : Kind} {code : Nat → Live W} {p : PyList W} (hp : Apart code p) {b : Nat} {xs : List Nat} :
    ∀ {n i : Nat} {w : W} {acc : List Int}, p.block w = b → p.items w = xs → i + n = xs.length →
      Follows K acc (gather K.bits w ((xs.drop i).map code)) (fastLoop K code p b n i w acc)
  | 0, i, w, acc, _, _, hl => by
    rw [List.drop_of_length_le (by omega)]
    simp [Follows, gather, fastLoop]
  | n + 1, i, w, acc, hb, hi, hl => by
    have hlt : i < xs.length := by omega
    rw [List.drop_eq_getElem_cons hlt, List.map_cons]
    unfold gather fastLoop
    rw [if_neg (by simp [hb]), hi, List.getElem?_eq_getElem hlt]
    dsimp only
    generalize xs[i] = x
    have hc := conv_elem K (code x) w
    have ha := hp x w
    rcases hr : (code x).run w with ⟨w', e | v⟩
    · rw [hr] at hc
      dsimp only at hc ⊢
      rw [hc]
      exact fun _ => ⟨_, _, rfl⟩
    · rw [hr] at hc ha
      dsimp only at hc ha ⊢
      rcases hu : unlessFits K.bits .overflowError v with _ | e
      · rw [hu] at hc
        dsimp only at hc ⊢
        rw [hc]
        dsimp only
        have ih := fastLoop_follows (K := K) hp (n := n) (i := i + 1) (w := w') (acc := acc ++ [v])
          (ha.1.trans hb) (ha.2.trans hi) (by omega)
        revert ih
        rcases gather K.bits w' ((xs.drop (i + 1)).map code) with ⟨w'', e | vs⟩
        · exact id
        · intro ih
          simpa [Follows] using ih
      · rw [hu] at hc
        dsimp only at hc ⊢
        rintro (h | h)
        · obtain ⟨u, hu⟩ := hc.2 h
          rw [hu]
          exact ⟨_, _, rfl⟩
        · exact (h hc.1).elim

theorem iterLoop_follows {K : Kind} (f : Feed W) : ∀ (w : W) (acc : List Int),
    Follows K acc (drain K.bits w f) (iterLoop K w acc f) := by
  induction f with
  | done g =>
    intro w acc
    simp [Follows, drain, iterLoop]
  | fail g e =>
    intro w acc _
    exact ⟨_, _, rfl⟩
  | item g x k ih =>
    intro w acc
    unfold drain iterLoop
    have hc := conv_elem K x (g w)
    rcases hr : x.run (g w) with ⟨w', e | v⟩
    · rw [hr] at hc
      dsimp only at hc ⊢
      rw [hc]
      exact fun _ => ⟨_, _, rfl⟩
    · rw [hr] at hc
      dsimp only at hc ⊢
      rcases hu : unlessFits K.bits .overflowError v with _ | e
      · rw [hu] at hc
        dsimp only at hc ⊢
        rw [hc]
        dsimp only
        have ih := ih w w' (acc ++ [v])
        revert ih
        rcases drain K.bits w' (k w) with ⟨w'', e | vs⟩
        · exact id
        · intro ih
          simpa [Follows] using ih
      · rw [hu] at hc
        dsimp only at hc ⊢
        rintro (h | h)
        · obtain ⟨u, hu⟩ := hc.2 h
          rw [hu]
          exact ⟨_, _, rfl⟩
        · exact (h hc.1).elim

/-- The elements of an argument that is no subclass of `list` and whose code leaves it alone. -/
theorem elements_follow {K : Kind} {code : Nat → Live W} {w : W} {g : Given W}
    (hp : ∀ p, g.pyList = some p → Apart code p) (hs : ∀ p it, g ≠ .sub p it) :
    Follows K [] (expected K.bits code w g) (elements K code w g) := by
  cases g with
  | int v => exact fun _ => ⟨_, _, rfl⟩
  | same xs => rfl
  | list p =>
    have := fastLoop_follows (K := K) (hp p rfl) (i := 0) (w := w) (acc := []) rfl rfl (Nat.zero_add _)
    rwa [List.drop_zero] at this
  | sub p it => exact (hs p it rfl).elim
  | tuple xs =>
    have hq : Apart code (⟨fun _ => 0, fun _ => xs⟩ : PyList W) := fun _ _ => ⟨rfl, rfl⟩
    have := fastLoop_follows (K := K) hq (i := 0) (w := w) (acc := []) rfl rfl (Nat.zero_add _)
    rwa [List.drop_zero] at this
  | other it =>
    simp only [expected, elements]
    rcases it w with ⟨w', e | f⟩
    · exact fun _ => ⟨_, _, rfl⟩
    · exact iterLoop_follows f w' []

theorem takeLoop_eq (f : Feed W) : ∀ (w : W) (acc : List (Live W)),
    match drainObjects w f with
    | (w', .ok xs) => takeLoop w acc f = .ok (w', acc ++ xs) ()
    | (w', .error e) => ∃ l, takeLoop w acc f = .exc (w', l) e := by
  induction f with
  | done g => intro w acc; simp [drainObjects, takeLoop]
  | fail g e => intro w acc; exact ⟨_, rfl⟩
  | item g x k ih =>
    intro w acc
    have ih := ih w (g w) (acc ++ [x])
    unfold drainObjects takeLoop
    revert ih
    rcases drainObjects (g w) (k w) with ⟨w', e | xs⟩
    · exact id
    · intro ih
      simpa using ih

/-- The elements for a list of objects, from an argument that is no subclass of `list`. -/
theorem objects_eq {code : Nat → Live W} {w : W} {g : Given W} (hs : ∀ p it, g ≠ .sub p it) :
    match expectedObjects code w g with
    | (w', .ok xs) => objects code w g = .ok (w', xs) ()
    | (w', .error _) => ∃ l e, objects code w g = .exc (w', l) e := by
  cases g with
  | int v => exact ⟨_, _, rfl⟩
  | same xs => rfl
  | list p => rfl
  | sub p it => exact (hs p it rfl).elim
  | tuple xs => rfl
  | other it =>
    simp only [expectedObjects, objects]
    rcases it w with ⟨w', e | f⟩
    · exact ⟨_, _, rfl⟩
    · have := takeLoop_eq f w' []
      revert this
      dsimp only
      rcases drainObjects w' f with ⟨w'', e | xs⟩
      · rintro ⟨l, h⟩
        exact ⟨l, e, h⟩
      · exact fun h => h

theorem fastLoop_safe {K : Kind} {code : Nat → Live W} {p : PyList W} (hp : Stays code p) {b : Nat} :
    ∀ {n i : Nat} {w : W} {acc : List Int}, p.block w = b → i + n ≤ (p.items w).length → ∀ u,
      fastLoop K code p b n i w acc ≠ .ub u
  | 0, _, _, _, _, _, _ => by simp [fastLoop]
  | n + 1, i, w, acc, hb, hl, u => by
    have hlt : i < (p.items w).length := by omega
    unfold fastLoop
    rw [if_neg (by simp [hb]), List.getElem?_eq_getElem hlt]
    dsimp only
    generalize (p.items w)[i] = x
    have ha := hp x w
    unfold conv
    rcases hr : (code x).run w with ⟨w', e | v⟩
    · simp
    · rw [hr] at ha
      dsimp only at ha ⊢
      rcases toElem K (.index v) with ⟨v', _ | e⟩
      · exact fastLoop_safe hp (ha.1.trans hb) (by omega) u
      · simp

theorem iterLoop_safe {K : Kind} (f : Feed W) : ∀ (w : W) (acc : List Int) u, iterLoop K w acc f ≠ .ub u := by
  induction f with
  | done g => simp [iterLoop]
  | fail g e => simp [iterLoop]
  | item g x k ih =>
    intro w acc u
    unfold iterLoop
    rcases conv (toElem K) x (g w) with ⟨w', v, _ | e⟩
    · exact ih w w' _ u
    · simp

theorem elements_safe {K : Kind} {code : Nat → Live W} {w : W} {g : Given W}
    (hp : ∀ p, g.pyList = some p → Stays code p) (u : UB) : elements K code w g ≠ .ub u := by
  cases g with
  | int v => simp [elements]
  | same xs => simp [elements]
  | list p => exact fastLoop_safe (hp p rfl) rfl (by omega) u
  | sub p it => exact fastLoop_safe (hp p rfl) rfl (by omega) u
  | tuple xs =>
    have hq : Stays code (⟨fun _ => 0, fun _ => xs⟩ : PyList W) := fun _ _ => ⟨rfl, Nat.le_refl _⟩
    exact fastLoop_safe hq rfl (by simp) u
  | other it =>
    simp only [elements]
    rcases it w with ⟨w', e | f⟩
    · simp
    · exact iterLoop_safe f w' [] u

/-! ## The whole call -/

theorem names_nodup : ["iterable", "exceptSize"].Nodup := by decide

/-- Parsing a call that fits. -/
theorem parseOn_fits {c : Call W} (h : Proper c) (hf : Fits ["iterable", "exceptSize"] c) {room : Nat → Bool} {w w1 : W}
    (hs : Sized room c w w1) :
    ∃ n : Option Int, parseOn c w = (w1, .ok (pick c 0 "iterable", n)) ∧ (0 < n.getD (-1) → room (n.getD (-1)).toNat = true) := by
  obtain ⟨h1, h2⟩ := (fits_iff h names_nodup).1 hf
  have h1 : ¬ c.args.length + c.kwargs.length > 2 := h1
  unfold parseOn
  rw [if_neg h1]
  rcases hs with ⟨ha, rfl⟩ | ⟨t, n, ha, hr, hlo, hhi, hroom⟩
  · rw [(pick_none h).2 ha]
    refine ⟨none, ?_, by simp⟩
    simp [convOr, h2]
  · rw [(pick_iff h).2 ha]
    have hn : FitsS 64 n := ⟨hlo, hhi⟩
    have hc : conv parseN t.index w = (w1, (n, none)) := by simp only [conv, hr, parseN, asLong, hn, if_true]
    refine ⟨some n, ?_, by simpa using hroom⟩
    simp only [Option.map_some, convOr, hc, h2, if_false]

/-- An int in place of the iterable. -/
theorem parseArgs_int {c : Call W} {w w1 : W} {t : Thing W} {n : Option Int} {v s : Int} {e : Option Exc}
    (hp : parseOn c w = (w1, .ok (some t, n))) (ht : t.what = .int v) (hv : asSsize (.int v) = (s, e)) :
    parseArgs c w = (w1, none, s, e) := by
  unfold parseArgs
  rw [hp]
  dsimp only
  rw [ht]
  dsimp only
  rw [hv]

/-- A call with an iterable, of an array list and of a linked list. -/
theorem initWith_eq {α : Type} {el : W → Given W → Out (W × List α) Unit} {room : Nat → Bool} {c : Call W} {w w1 : W}
    {t : Thing W} (hc : Proper c) (hf : Fits ["iterable", "exceptSize"] c) (ht : IsArg c 0 "iterable" t)
    (hs : Sized room c w w1) (hi : ∀ v, t.what ≠ .int v) : initWith el room c w = el w1 t.what := by
  obtain ⟨n, hpo, hroom⟩ := parseOn_fits hc hf hs
  have hpa : parseArgs c w = (w1, some t.what, n.getD (-1), none) := by
    unfold parseArgs
    rw [hpo, (pick_iff hc).2 ht]
    dsimp only
    split
    · next v hv => exact (hi v hv).elim
    · rfl
  unfold initWith
  rw [hpa]
  dsimp only
  rw [if_neg (by rintro ⟨h1, h2⟩; rw [hroom h1] at h2; cases h2)]
  cases el w1 t.what <;> rfl

theorem linkedWith_eq {α : Type} {el : W → Given W → Out (W × List α) Unit} {c : Call W} {w : W} {t : Thing W}
    (hc : Proper c) (hf : Fits ["iterable"] c) (ht : IsArg c 0 "iterable" t) : linkedWith el c w = el w t.what := by
  obtain ⟨h1, h2⟩ := (fits_iff hc (by decide)).1 hf
  have h1 : ¬ c.args.length + c.kwargs.length > 1 := h1
  unfold linkedWith parseO
  rw [if_neg h1, if_neg h2, (pick_iff hc).2 ht]

/-- Calls without an iterable. -/
theorem initWith_empty {α : Type} {el : W → Given W → Out (W × List α) Unit} {room : Nat → Bool} {c : Call W} {w w1 : W}
    (hc : Proper c) (hf : Fits ["iterable", "exceptSize"] c) (hs : Sized room c w w1)
    (ht : (∀ t, ¬ IsArg c 0 "iterable" t) ∨
      ∃ t v, IsArg c 0 "iterable" t ∧ t.what = .int v ∧ -(2 ^ 63) ≤ v ∧ v < 2 ^ 63 ∧ (0 < v → room v.toNat = true)) :
    initWith el room c w = .ok (w1, []) () := by
  obtain ⟨n, hpo, hroom⟩ := parseOn_fits hc hf hs
  rcases ht with ht | ⟨t, v, ht, hv, hlo, hhi, hr⟩
  · unfold initWith parseArgs
    rw [hpo, (pick_none hc).2 ht]
    dsimp only
    rw [if_neg (by rintro ⟨h1, h2⟩; rw [hroom h1] at h2; cases h2)]
    rfl
  · have hfit : FitsS 64 v := ⟨hlo, hhi⟩
    have ha : asSsize (.int v) = (v, none) := if_pos hfit
    rw [(pick_iff hc).2 ht] at hpo
    unfold initWith
    rw [parseArgs_int hpo hv ha]
    dsimp only
    rw [if_neg (by rintro ⟨h1, h2⟩; rw [hr h1] at h2; cases h2)]
    rfl

/-- Calls with a size for which there is no memory. -/
theorem initWith_noRoom {α : Type} {el : W → Given W → Out (W × List α) Unit} {room : Nat → Bool} {c : Call W} {w w1 : W}
    (hc : Proper c) (hf : Fits ["iterable", "exceptSize"] c)
    (h : (∃ t n, IsArg c 1 "exceptSize" t ∧ t.index.run w = (w1, .ok n) ∧ 0 < n ∧ n < 2 ^ 63 ∧ room n.toNat = false ∧
        ∀ t v, IsArg c 0 "iterable" t → t.what ≠ .int v) ∨
      ∃ t v, IsArg c 0 "iterable" t ∧ t.what = .int v ∧ 0 < v ∧ v < 2 ^ 63 ∧ room v.toNat = false ∧
        Sized (fun _ => true) c w w1) : initWith el room c w = .exc (w1, []) .runtimeError := by
  rcases h with ⟨t, n, ha, hr, hlo, hhi, hroom, hi⟩ | ⟨t, v, ht, hv, hlo, hhi, hroom, hs⟩
  · obtain ⟨h1, h2⟩ := (fits_iff hc names_nodup).1 hf
    have h1 : ¬ c.args.length + c.kwargs.length > 2 := h1
    have hn : FitsS 64 n := ⟨by show -(2 ^ 63) ≤ n; omega, hhi⟩
    have hcv : conv parseN t.index w = (w1, (n, none)) := by simp only [conv, hr, parseN, asLong, hn, if_true]
    have hpo : parseOn c w = (w1, .ok (pick c 0 "iterable", some n)) := by
      unfold parseOn
      rw [if_neg h1, (pick_iff hc).2 ha]
      simp only [Option.map_some, convOr, hcv, h2, if_false]
    have hpa : ∃ g, parseArgs c w = (w1, g, n, none) := by
      unfold parseArgs
      rw [hpo]
      dsimp only
      cases hp : pick c 0 "iterable" with
      | none => exact ⟨none, rfl⟩
      | some t' =>
        dsimp only
        split
        · next v hv => exact (hi t' v ((pick_iff hc).1 hp) hv).elim
        · exact ⟨_, rfl⟩
    obtain ⟨g, hpa⟩ := hpa
    unfold initWith
    rw [hpa]
    dsimp only
    rw [if_pos ⟨hlo, hroom⟩]
  · obtain ⟨n, hpo, -⟩ := parseOn_fits hc hf hs
    have hfit : FitsS 64 v := ⟨by show -(2 ^ 63) ≤ v; omega, hhi⟩
    have ha : asSsize (.int v) = (v, none) := if_pos hfit
    rw [(pick_iff hc).2 ht] at hpo
    unfold initWith
    rw [parseArgs_int hpo hv ha]
    dsimp only
    rw [if_pos ⟨hlo, hroom⟩]

/-- Calls of a linked list that do not fit. -/
theorem linkedWith_bad {α : Type} {el : W → Given W → Out (W × List α) Unit} {c : Call W} {w : W} (hc : Proper c)
    (hf : ¬ Fits ["iterable"] c) : linkedWith el c w = .exc (w, []) .typeError := by
  have h := mt (fits_iff hc (by decide)).2 hf
  unfold linkedWith parseO
  by_cases h1 : c.args.length + c.kwargs.length > 1
  · rw [if_pos h1]
  · have h2 : used c 0 ["iterable"] < c.kwargs.length := Classical.byContradiction fun h2 => h ⟨h1, h2⟩
    rw [if_neg h1, if_pos h2]

/-- Calls of an array list that are wrong. -/
theorem initWith_bad {α : Type} {el : W → Given W → Out (W × List α) Unit} {room : Nat → Bool} {c : Call W} {w : W}
    (hc : Proper c)
    (h : ¬ Fits ["iterable", "exceptSize"] c ∨
      (∃ t w' e, IsArg c 1 "exceptSize" t ∧ t.index.run w = (w', .error e)) ∨
      (∃ t w' n, IsArg c 1 "exceptSize" t ∧ t.index.run w = (w', .ok n) ∧ ¬ (-(2 ^ 63) ≤ n ∧ n < 2 ^ 63)) ∨
      ∃ t v w', IsArg c 0 "iterable" t ∧ t.what = .int v ∧ ¬ (-(2 ^ 63) ≤ v ∧ v < 2 ^ 63) ∧ Sized room c w w') :
    ∃ w' e, initWith el room c w = .pending (w', []) () e := by
  have err : ∀ w' e, parseOn c w = (w', .error e) → ∃ w' e, initWith el room c w = .pending (w', []) () e := by
    intro w' e hpo
    refine ⟨w', e, ?_⟩
    unfold initWith parseArgs
    rw [hpo]
    dsimp only
    rw [if_neg (by simp)]
    rfl
  by_cases hf : Fits ["iterable", "exceptSize"] c
  · obtain ⟨h1, h2⟩ := (fits_iff hc names_nodup).1 hf
    have h1 : ¬ c.args.length + c.kwargs.length > 2 := h1
    rcases h with h | ⟨t, w', e, ha, hr⟩ | ⟨t, w', n, ha, hr, hn⟩ | ⟨t, v, w', ha, hv, hn, hs⟩
    · exact (h hf).elim
    · apply err w' e
      unfold parseOn
      rw [if_neg h1, (pick_iff hc).2 ha]
      simp only [Option.map_some, convOr, conv, hr]
    · apply err w' .overflowError
      have hn' : parseN (.index n) = (-1, some .overflowError) := if_neg hn
      unfold parseOn
      rw [if_neg h1, (pick_iff hc).2 ha]
      simp only [Option.map_some, convOr, conv, hr, hn']
    · obtain ⟨n, hpo, hroom⟩ := parseOn_fits hc hf hs
      have hn' : asSsize (.int v) = (-1, some .overflowError) := if_neg hn
      refine ⟨w', .overflowError, ?_⟩
      rw [(pick_iff hc).2 ha] at hpo
      unfold initWith
      rw [parseArgs_int hpo hv hn']
      dsimp only
      rw [if_neg (by simp)]
      rfl
  · have hf' := mt (fits_iff hc names_nodup).2 hf
    by_cases h1 : c.args.length + c.kwargs.length > 2
    · apply err w .typeError
      unfold parseOn
      rw [if_pos h1]
    · have h2 : used c 0 ["iterable", "exceptSize"] < c.kwargs.length := Classical.byContradiction fun h2 => hf' ⟨h1, h2⟩
      rcases hx : convOr 0 ((pick c 1 "exceptSize").map Thing.index) w with ⟨w', n, _ | e⟩
      · apply err w' .typeError
        unfold parseOn
        rw [if_neg h1, hx]
        dsimp only
        rw [if_pos h2]
      · apply err w' e
        unfold parseOn
        rw [if_neg h1, hx]

/-- The iterable that is looked at is the argument. -/
theorem parseArgs_given {c : Call W} (hc : Proper c) {w : W} {g : Given W} (hg : (parseArgs c w).2.1 = some g) :
    ∃ t, IsArg c 0 "iterable" t ∧ t.what = g := by
  unfold parseArgs at hg
  rcases hpo : parseOn c w with ⟨w1, e | ⟨t, n⟩⟩
  · rw [hpo] at hg; cases hg
  · rw [hpo] at hg
    have hpick : t = pick c 0 "iterable" := by
      unfold parseOn at hpo
      split at hpo
      · cases hpo
      · split at hpo
        · cases hpo
        · split at hpo
          · cases hpo
          · simp only [Prod.mk.injEq, Except.ok.injEq] at hpo
            exact hpo.2.1.symm
    cases t with
    | none => cases hg
    | some t =>
      refine ⟨t, (pick_iff hc).1 hpick.symm, ?_⟩
      dsimp only at hg
      split at hg
      · cases hg
      · exact Option.some.inj hg

end Verif.Construct
