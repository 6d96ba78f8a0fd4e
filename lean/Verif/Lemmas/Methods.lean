import Verif.Spec.Methods
import Verif.Model.Methods
import Verif.Spec.GuardMethods
import Verif.Lemmas.ExactSlice
import Verif.Lemmas.ExactLinked

/-!
# Lemmas about calls by name
-/

namespace Verif.Methods

variable {S : Type}

theorem lookup_mem {kw : List (String × Thing S)} (hp : (kw.map Prod.fst).Nodup) {s : String} {t : Thing S} :
    kw.lookup s = some t ↔ (s, t) ∈ kw := by
  induction kw with
  | nil => simp
  | cons k kw ih =>
    obtain ⟨k1, k2⟩ := k
    simp only [List.map_cons, List.nodup_cons, List.mem_map, not_exists, not_and] at hp
    by_cases h : s = k1
    · subst h
      simp only [List.lookup_cons, beq_self_eq_true, Option.some.injEq, List.mem_cons, Prod.mk.injEq, true_and]
      constructor
      · rintro rfl; exact .inl rfl
      · rintro (h | h)
        · exact h.symm
        · exact absurd rfl (hp.1 (s, t) h)
    · have hb : (s == k1) = false := by simpa using h
      simp only [List.lookup_cons, hb, List.mem_cons, Prod.mk.injEq, h, false_and, false_or]
      exact ih hp.2

theorem lookup_none {kw : List (String × Thing S)} {s : String} : kw.lookup s = none ↔ ∀ t, (s, t) ∉ kw := by
  induction kw with
  | nil => simp
  | cons k kw ih =>
    obtain ⟨k1, k2⟩ := k
    by_cases h : s = k1
    · subst h
      simp only [List.lookup_cons, beq_self_eq_true]
      constructor
      · intro h; cases h
      · intro h; exact absurd (List.mem_cons_self) (h k2)
    · have hb : (s == k1) = false := by simpa using h
      simp only [List.lookup_cons, hb, List.mem_cons, Prod.mk.injEq, h, false_and, false_or]
      exact ih

/-! ## Everything but `sort` -/

/-- What a name stands for in the classes that have it. -/
def implOf : Name → Impl
  | .append => .method .append .o
  | .extend => .method .extend .fastcall
  | .insert => .method .insert .varargs
  | .pop => .method .pop .fastcall
  | .remove => .method .remove .o
  | .index => .method .index .varargs
  | .count => .method .count .o
  | .sort => .method .sort .keywords
  | .reverse => .method .reverse .noargs
  | .clear => .method .clear .noargs
  | .copy => .method .copy .noargs
  | .toList => .method .toList .noargs
  | .resize => .method .resize .o
  | .fromRange => .method .fromRange .varargs
  | .len => .slot .len .mpLength .none
  | .add => .slot .add .sqConcat .one
  | .mul => .slot .mul .sqRepeat .one
  | .rmul => .slot .rmul .sqRepeat .one
  | .iadd => .slot .iadd .sqInplaceConcat .one
  | .imul => .slot .imul .sqInplaceRepeat .one
  | .getitem => .slot .getitem .mpSubscript .one
  | .setitem => .slot .setitem .mpAssSubscript .two
  | .delitem => .slot .delitem .mpAssSubscript .one
  | .contains => .slot .contains .sqContains .one
  | .iter => .slot .iter .tpIter .none
  | .reversed => .method .reversed .noargs
  | .repr => .slot .repr .tpRepr .none
  | .str => .slot .str .tpStr .none
  | .hash => .slot .hash .tpHash .none
  | .lt => .slot .lt .tpRichcompare .one
  | .le => .slot .le .tpRichcompare .one
  | .eq => .slot .eq .tpRichcompare .one
  | .ne => .slot .ne .tpRichcompare .one
  | .gt => .slot .gt .tpRichcompare .one
  | .ge => .slot .ge .tpRichcompare .one

theorem dict_eq (cls : Cls) (name : Name) :
    (dict cls).lookup name = if Has cls name then some (implOf name) else none := by
  cases cls <;> cases name <;> decide +kernel

theorem missing_iff (cls : Cls) (empty : Bool) (name : Name) (c : Args S) :
    request cls empty name c = none ↔ Has cls name = false := by
  unfold request
  rw [dict_eq]
  cases Has cls name with
  | false => simp
  | true => cases implOf name <;> simp

/-- The call of a method that is there. -/
def named (cls : Cls) (empty : Bool) (name : Name) (c : Args S) : Except Exc (Request S) :=
  match implOf name with
  | .slot n s w => callSlot n s w c
  | .method f fl => callMethod cls empty f fl c

theorem request_named {cls : Cls} {name : Name} (hh : Has cls name = true) (empty : Bool) (c : Args S) :
    request cls empty name c = some (named cls empty name c) := by
  unfold request named
  rw [dict_eq, hh]
  cases implOf name <;> rfl

/-- No method but `sort` takes keywords. -/
theorem named_keywords (cls : Cls) (empty : Bool) (name : Name) (pos : List (Thing S)) (k : String × Thing S)
    (kw : List (String × Thing S)) (hs : name ≠ .sort) : named cls empty name ⟨pos, k :: kw⟩ = .error .typeError := by
  cases name <;> first | rfl | exact absurd rfl hs

theorem documented_keywords (name : Name) (pos : List (Thing S)) (k : String × Thing S)
    (kw : List (String × Thing S)) (hs : name ≠ .sort) : documented name ⟨pos, k :: kw⟩ = .error .typeError := by
  cases name <;> first | exact absurd rfl hs | simp only [documented]

theorem named_eq (cls : Cls) (empty : Bool) (name : Name) (c : Args S) (hs : name ≠ .sort)
    (hd : ¬ Deviates cls empty name c) : named cls empty name c = documented name c := by
  obtain ⟨pos, kw⟩ := c
  cases kw with
  | cons k kw => rw [named_keywords _ _ _ _ _ _ hs, documented_keywords _ _ _ _ hs]
  | nil =>
    rcases pos with _ | ⟨a, _ | ⟨b, _ | ⟨c, _ | ⟨d, r⟩⟩⟩⟩ <;> cases name <;> first | rfl | exact absurd rfl hs | skip
    all_goals (cases empty with | false => rfl | true => exact absurd ⟨rfl, rfl, by simp⟩ hd)

/-! ## `sort` -/

/-- The keywords that are used are those that name a parameter no positional argument stands for. -/
theorem used_le {c : Args S} (h : Proper c) : ∀ {names : List String} {i : Nat}, names.Nodup →
    used c i names = (c.kw.filter fun k => decide (k.1 ∈ names.drop (c.pos.length - i))).length
  | [], i, _ => by
    have : (c.kw.filter fun k => decide (k.1 ∈ ([] : List String).drop (c.pos.length - i))) = [] := by
      rw [List.filter_eq_nil_iff]; simp
    rw [this]
    rfl
  | s :: ss, i, hn => by
    have hn' := List.nodup_cons.1 hn
    rw [used]
    by_cases hi : i < c.pos.length
    · rw [if_pos hi, Nat.zero_add, used_le h hn'.2]
      obtain ⟨m, hm⟩ : ∃ m, c.pos.length - i = m + 1 := ⟨c.pos.length - i - 1, by omega⟩
      have : c.pos.length - (i + 1) = m := by omega
      rw [hm, this, List.drop_succ_cons]
    · rw [if_neg hi, used_le h hn'.2]
      have e1 : c.pos.length - i = 0 := by omega
      have e2 : c.pos.length - (i + 1) = 0 := by omega
      rw [e1, e2, List.drop_zero, List.drop_zero]
      have key : ∀ l : List (String × Thing S), (l.map Prod.fst).Nodup →
          (if (l.lookup s).isSome then 1 else 0) + (l.filter fun k => decide (k.1 ∈ ss)).length =
            (l.filter fun k => decide (k.1 ∈ s :: ss)).length := by
        intro l hl
        induction l with
        | nil => simp
        | cons a l ih =>
          obtain ⟨k, u⟩ := a
          simp only [List.map_cons, List.nodup_cons] at hl
          have ih := ih hl.2
          rw [List.lookup_cons]
          by_cases hk : s = k
          · subst hk
            have hno : l.lookup s = none := by
              rcases hx : l.lookup s with _ | t
              · rfl
              · exact (hl.1 (List.mem_map.2 ⟨_, (lookup_mem hl.2).1 hx, rfl⟩)).elim
            rw [hno] at ih
            simp only [Option.isSome_none, Bool.false_eq_true, if_false, Nat.zero_add] at ih
            simp only [beq_self_eq_true, Option.isSome_some, if_true, List.filter_cons, List.mem_cons, true_or,
              decide_true, List.length_cons, hn'.1, decide_false, Bool.false_eq_true, if_false, ih]
            simp only [List.mem_cons] at ih
            omega
          · have hb : (s == k) = false := by simpa using hk
            have hk' : ¬ k = s := fun e => hk e.symm
            rw [hb]
            dsimp only
            by_cases hks : k ∈ ss
            · have hd : decide (k ∈ s :: ss) = true := by simp [hks]
              simp only [List.filter_cons, hks, decide_true, if_true, hd, List.length_cons]
              omega
            · have hd : decide (k ∈ s :: ss) = false := by simp [hks, hk']
              simp only [List.filter_cons, hks, decide_false, hd, Bool.false_eq_true, if_false]
              exact ih
      exact key c.kw h

/-- Every keyword names a parameter of `sort` for which there is no positional argument. -/
def Placed (c : Args S) : Prop := ∀ k ∈ c.kw, k.1 ∈ ["key", "reverse"].drop c.pos.length

theorem used_iff {c : Args S} (h : Proper c) : used c 0 ["key", "reverse"] < c.kw.length ↔ ¬ Placed c := by
  rw [used_le h (by decide), Nat.sub_zero]
  have hf : (c.kw.filter fun k => decide (k.1 ∈ ["key", "reverse"].drop c.pos.length)).length = c.kw.length ↔ Placed c := by
    rw [List.length_filter_eq_length_iff]
    simp [Placed]
  have hle := List.length_filter_le (fun k : String × Thing S => decide (k.1 ∈ ["key", "reverse"].drop c.pos.length)) c.kw
  rw [← hf]
  omega

theorem placed_length {c : Args S} (h : Proper c) (hk : Placed c) : c.kw.length ≤ 2 - c.pos.length := by
  have : (c.kw.map Prod.fst) ⊆ ["key", "reverse"].drop c.pos.length := by
    intro s hs
    obtain ⟨k, hk', rfl⟩ := List.mem_map.1 hs
    exact hk k hk'
  simpa using List.Nodup.length_le_of_subset h this

theorem pick_iff {c : Args S} (h : Proper c) (t : Thing S) : pick c 1 "reverse" = some t ↔ IsReverse c t := by
  unfold pick IsReverse
  rcases e : c.pos[1]? with _ | x
  · have : c.pos.length ≤ 1 := by simpa using e
    simp only [lookup_mem h, this, true_and, reduceCtorEq, false_or]
  · have : ¬ c.pos.length ≤ 1 := by
      intro hl
      rw [List.getElem?_eq_none hl] at e
      cases e
    simp [this]

theorem pick_none {c : Args S} (h : Proper c) : pick c 1 "reverse" = none ↔ ∀ t, ¬ IsReverse c t := by
  constructor
  · intro e t ht
    rw [← pick_iff h, e] at ht
    cases ht
  · intro hn
    rcases e : pick c 1 "reverse" with _ | t
    · rfl
    · exact absurd ((pick_iff h t).1 e) (hn t)

theorem parseI_cases (t : Thing S) :
    (∃ n, Number t n ∧ Spec.InRange 32 n ∧ parseI t.arg = (n, none)) ∨
    (∃ n, Number t n ∧ ¬ Spec.InRange 32 n ∧ parseI t.arg = (-1, some .overflowError)) ∨
    ((∀ n, ¬ Number t n) ∧ parseI t.arg = (-1, some .typeError)) := by
  unfold Number
  cases t.arg with
  | int n | index n =>
    by_cases h : FitsS 32 n
    · exact .inl ⟨n, by simp, h, if_pos h⟩
    · exact .inr (.inl ⟨n, by simp, h, if_neg h⟩)
  | other => exact .inr (.inr ⟨by simp, rfl⟩)

theorem number_unique {t : Thing S} {n m : Int} (h : Number t n) (h' : Number t m) : n = m := by
  unfold Number at h h'
  rcases h with h | h <;> rcases h' with h' | h' <;> rw [h] at h' <;> first | exact Arg.int.inj h' | exact Arg.index.inj h' | cases h'

theorem documented_sort {c : Args S} (hk : Keywords c) :
    documented .sort c =
      .ok (.sort ((c.kw.lookup "key").filter (!·.isNone)) ((c.kw.lookup "reverse").elim false Thing.truth)) := by
  obtain ⟨pos, kw⟩ := c
  obtain ⟨rfl, hk⟩ := hk
  have : (kw.all fun k => k.1 = "key" ∨ k.1 = "reverse") = true := by simpa using hk
  simp only [documented, this, if_true]

theorem documented_sort_not {c : Args S} (hk : ¬ Keywords c) : documented .sort c = .error .typeError := by
  obtain ⟨pos, kw⟩ := c
  cases pos with
  | cons a r => simp only [documented]
  | nil =>
    have : ¬ (kw.all fun k => k.1 = "key" ∨ k.1 = "reverse") = true := by
      intro h
      exact hk ⟨rfl, by simpa using h⟩
    simp only [documented, this]
    rfl

theorem keyed_plain {cls : Cls} {c : Args S} (hp : Proper c) (r : Int) :
    descending cls (keyed (c.kw.lookup "key")) r = true ↔
      ((Plain cls c → r = 1) ∧ (¬ Plain cls c → r ≠ 0)) := by
  have hk : (keyed (c.kw.lookup "key")).isSome = true ↔ ¬ ∀ k, ("key", k) ∈ c.kw → k.isNone = true := by
    unfold keyed
    rcases e : c.kw.lookup "key" with _ | t
    · have := lookup_none.1 e
      simp [this]
    · have he := (lookup_mem hp).1 e
      have hu : ∀ k, ("key", k) ∈ c.kw → k = t := by
        intro k hk
        have := (lookup_mem hp).2 hk
        rw [e] at this
        exact (Option.some.inj this).symm
      cases ht : t.isNone with
      | true =>
        simp only [Option.filter, ht, Bool.not_true, Bool.false_eq_true, if_false, Option.isSome_none, false_iff]
        intro h
        refine h fun k hk => ?_
        rw [hu k hk]
        exact ht
      | false =>
        simp only [Option.filter, ht, Bool.not_false, if_true, Option.isSome_some, true_iff]
        intro h
        rw [h t he] at ht
        cases ht
  have hP : Plain cls c ↔ (cls ≠ .objArray ∧ cls ≠ .objLinked) ∧ ¬ (keyed (c.kw.lookup "key")).isSome = true := by
    rw [hk]
    simp [Plain, and_assoc]
  rw [hP]
  generalize keyed (c.kw.lookup "key") = k
  cases cls <;> cases k <;> simp [descending]

theorem named_sort (cls : Cls) (empty : Bool) (c : Args S) :
    named cls empty .sort c = match parseSort c with
      | .error e => .error e
      | .ok (k, r) => .ok (.sort (keyed k) (descending cls (keyed k) r)) := rfl

theorem sort_keywords {cls : Cls} {c : Args S} (empty : Bool) (hp : Proper c) (hk : Keywords c) :
    named cls empty .sort c = documented .sort c ↔ Directed cls c := by
  have hpl : Placed c := by
    intro k h
    rw [hk.1]
    rcases hk.2 k h with e | e <;> simp [e]
  have hlen := placed_length hp hpl
  have hpos : c.pos.length = 0 := by rw [hk.1]; rfl
  have h2 : ¬ c.pos.length + c.kw.length > 2 := by omega
  have hu : ¬ used c 0 ["key", "reverse"] < c.kw.length := fun h => (used_iff hp).1 h hpl
  have h0 : pick c 0 "key" = c.kw.lookup "key" := by unfold pick; rw [hk.1]; rfl
  have h1 : pick c 1 "reverse" = c.kw.lookup "reverse" := by unfold pick; rw [hk.1]; rfl
  have e : named cls empty .sort c =
      match (pick c 1 "reverse").elim (0, none) (fun t => parseI t.arg) with
      | (_, some e) => .error e
      | (r, none) => .ok (.sort (keyed (c.kw.lookup "key")) (descending cls (keyed (c.kw.lookup "key")) r)) := by
    rw [named_sort]
    unfold parseSort
    rw [if_neg h2]
    rcases (pick c 1 "reverse").elim (0, none) (fun t => parseI t.arg) with ⟨r, _ | x⟩
    · simp only [if_neg hu, h0]
    · rfl
  rw [e, documented_sort hk, ← h1]
  rcases er : pick c 1 "reverse" with _ | t
  · have hn := (pick_none hp).1 er
    refine iff_of_true ?_ (fun t ht => absurd ht (hn t))
    have : descending cls (keyed (c.kw.lookup "key")) 0 = false := by
      cases cls <;> simp [descending]
    simp only [Option.elim_none, this]
    rfl
  · have ht := (pick_iff hp t).1 er
    have huniq : ∀ t', IsReverse c t' → t' = t := by
      intro t' h'
      have := (pick_iff hp t').2 h'
      rw [er] at this
      exact (Option.some.inj this).symm
    have hdir : Directed cls c ↔ ∃ n, Number t n ∧ Spec.InRange 32 n ∧
        (Plain cls c → (t.truth = true ↔ n = 1)) ∧ (¬ Plain cls c → (t.truth = true ↔ n ≠ 0)) := by
      constructor
      · intro h; exact h t ht
      · intro h t' h'; rw [huniq t' h']; exact h
    rw [hdir]
    simp only [Option.elim_some]
    rcases parseI_cases t with ⟨n, hn, hr, hc⟩ | ⟨n, hn, hr, hc⟩ | ⟨hn, hc⟩
    · simp only [hc]
      have hk' : keyed (c.kw.lookup "key") = (c.kw.lookup "key").filter (!·.isNone) := rfl
      rw [hk']
      have hd := keyed_plain (cls := cls) hp n
      rw [hk'] at hd
      simp only [Except.ok.injEq, Request.sort.injEq, true_and]
      constructor
      · intro h
        rw [h] at hd
        refine ⟨n, hn, hr, fun hP => ?_, fun hP => ?_⟩
        · rw [hd]; simp [hP]
        · rw [hd]; simp [hP]
      · rintro ⟨m, hm, -, h3, h4⟩
        obtain rfl := number_unique hn hm
        rw [Bool.eq_iff_iff, hd]
        by_cases hP : Plain cls c
        · simp [hP, h3 hP]
        · simp [hP, h4 hP]
    · simp only [hc]
      refine iff_of_false (by simp) ?_
      rintro ⟨m, hm, hr', -⟩
      obtain rfl := number_unique hn hm
      exact hr hr'
    · simp only [hc]
      refine iff_of_false (by simp) ?_
      rintro ⟨m, hm, -⟩
      exact hn m hm

theorem sort_other {cls : Cls} {c : Args S} (empty : Bool) (hp : Proper c) (hk : ¬ Keywords c) :
    named cls empty .sort c = documented .sort c ↔ ¬ Lax c := by
  rw [documented_sort_not hk, named_sort]
  unfold parseSort Lax
  by_cases h2 : c.pos.length + c.kw.length > 2
  · rw [if_pos h2]
    exact iff_of_true rfl (fun h => by omega)
  rw [if_neg h2]
  have h2' : c.pos.length + c.kw.length ≤ 2 := by omega
  rcases er : pick c 1 "reverse" with _ | t
  · have hn := (pick_none hp).1 er
    simp only [Option.elim_none]
    by_cases hu : used c 0 ["key", "reverse"] < c.kw.length
    · rw [if_pos hu]
      refine iff_of_true rfl ?_
      rintro ⟨-, ⟨t, n, ht, -⟩ | ⟨-, hpl⟩⟩
      · exact hn t ht
      · exact (used_iff hp).1 hu hpl
    · rw [if_neg hu]
      refine iff_of_false (by simp) (fun h => h ⟨h2', .inr ⟨fun t ht => absurd ht (hn t), ?_⟩⟩)
      exact Classical.byContradiction fun h => hu ((used_iff hp).2 h)
  · have ht := (pick_iff hp t).1 er
    have huniq : ∀ t', IsReverse c t' → t' = t := by
      intro t' h'
      have := (pick_iff hp t').2 h'
      rw [er] at this
      exact (Option.some.inj this).symm
    simp only [Option.elim_some]
    rcases parseI_cases t with ⟨n, hn, hr, hc⟩ | ⟨n, hn, hr, hc⟩ | ⟨hn, hc⟩
    · simp only [hc]
      by_cases hu : used c 0 ["key", "reverse"] < c.kw.length
      · rw [if_pos hu]
        refine iff_of_true rfl ?_
        rintro ⟨-, ⟨t', m, ht', hm, hr'⟩ | ⟨-, hpl⟩⟩
        · rw [huniq t' ht'] at hm
          obtain rfl := number_unique hn hm
          exact hr' hr
        · exact (used_iff hp).1 hu hpl
      · rw [if_neg hu]
        refine iff_of_false (by simp) (fun h => h ⟨h2', .inr ⟨fun t' ht' => ⟨n, by rw [huniq t' ht']; exact hn⟩, ?_⟩⟩)
        exact Classical.byContradiction fun h => hu ((used_iff hp).2 h)
    · simp only [hc]
      refine iff_of_false (by simp) (fun h => h ⟨h2', .inl ⟨t, n, ht, hn, hr⟩⟩)
    · simp only [hc]
      refine iff_of_true trivial ?_
      rintro ⟨-, ⟨t', m, ht', hm, -⟩ | ⟨h, -⟩⟩
      · rw [huniq t' ht'] at hm
        exact hn m hm
      · obtain ⟨m, hm⟩ := h t ht
        exact hn m hm

theorem named_iff {cls : Cls} {empty : Bool} {name : Name} {c : Args S} (hp : Proper c) :
    named cls empty name c = documented name c ↔ ¬ Deviates cls empty name c := by
  by_cases hs : name = .sort
  · subst hs
    by_cases hk : Keywords c
    · rw [sort_keywords empty hp hk]
      simp only [Deviates, hk, true_and, not_true, false_and, or_false]
      exact ⟨fun h h' => h' h, fun h => Classical.byContradiction h⟩
    · rw [sort_other empty hp hk]
      simp [Deviates, hk]
  · refine ⟨fun h hd => ?_, named_eq cls empty name c hs⟩
    have hn : name = .pop := by
      cases name <;> first | rfl | exact absurd rfl hs | exact absurd hd id
    subst hn
    obtain ⟨he, hk, hl⟩ := hd
    obtain ⟨pos, kw⟩ := c
    dsimp only at hk hl
    subst hk he
    rcases pos with _ | ⟨a, _ | ⟨b, r⟩⟩
    · simp at hl
    · simp at hl
    · cases h

/-! ## Int lists -/

theorem deviates_class {cls : Cls} {empty : Bool} {name : Name} {c : Args S} (hs : name ≠ .sort) (cls' : Cls) :
    Deviates cls empty name c ↔ Deviates cls' empty name c := by
  cases name <;> first | exact Iff.rfl | exact absurd rfl hs

/-- Not deviating, or the one way of a call to deviate that is not `sort`. -/
theorem named_or {cls : Cls} {empty : Bool} {name : Name} {c : Args S} (hp : Proper c) (hs : name ≠ .sort) :
    (¬ Deviates cls empty name c ∧ named cls empty name c = documented name c) ∨
    (Deviates cls empty name c ∧ named cls empty name c = .error .indexError ∧
      documented name c = .error .typeError) := by
  by_cases h : Deviates cls empty name c
  · refine .inr ⟨h, ?_⟩
    have hn : name = .pop := by
      cases name <;> first | rfl | exact absurd rfl hs | exact absurd h id
    subst hn
    obtain ⟨he, hk, hl⟩ := h
    obtain ⟨pos, kw⟩ := c
    dsimp only at hk hl
    subst hk he
    rcases pos with _ | ⟨a, _ | ⟨b, r⟩⟩
    · simp at hl
    · simp at hl
    · exact ⟨rfl, rfl⟩
  · exact .inl ⟨h, (named_iff hp).2 h⟩

theorem times_cases (t : Thing S) :
    (∃ n, Number t n ∧ Spec.InRange 64 n ∧ times t = (n, none)) ∨
    (∃ n, Number t n ∧ ¬ Spec.InRange 64 n ∧ times t = (-1, some .overflowError)) ∨
    (t.arg = .other ∧ times t = (-1, some .typeError)) := by
  unfold Number times
  cases t.arg with
  | int n | index n =>
    by_cases h : FitsS 64 n
    · exact .inl ⟨n, by simp, h, if_pos h⟩
    · exact .inr (.inl ⟨n, by simp, h, if_neg h⟩)
  | other => exact .inr (.inr ⟨rfl, rfl⟩)

/-- `*` and `*=` with the number that an object stands for. -/
theorem counted_exact {exact : Op → Prop} {l : List Int} {bits : Nat} {f : Int → Op} {o : Op → LOut}
    (h : ∀ n, Agrees (o (f n)) (Spec.step bits l (f n)) ↔ exact (f n)) (t : Thing Src) :
    Agrees (match times t with | (_, some e) => .exc l e | (n, none) => o (f n))
      (match t.arg with
        | .int n | .index n => if Spec.InRange 64 n then Spec.step bits l (f n) else (l, .error .overflowError)
        | .other => (l, .error .typeError)) ↔
      ∀ n, Number t n → Spec.InRange 64 n → exact (f n) := by
  rcases times_cases t with ⟨n, hn, hr, hc⟩ | ⟨n, hn, hr, hc⟩ | ⟨ho, hc⟩
  · have e : (match t.arg with
        | .int n | .index n => if Spec.InRange 64 n then Spec.step bits l (f n) else (l, .error .overflowError)
        | .other => (l, .error .typeError)) = Spec.step bits l (f n) := by
      rcases hn with e | e <;> rw [e] <;> exact if_pos hr
    rw [e, hc]
    dsimp only
    rw [h]
    constructor
    · intro h m hm _
      rw [← number_unique hn hm]
      exact h
    · intro h; exact h n hn hr
  · have e : (match t.arg with
        | .int n | .index n => if Spec.InRange 64 n then Spec.step bits l (f n) else (l, .error .overflowError)
        | .other => (l, .error .typeError)) = (l, .error .overflowError) := by
      rcases hn with e | e <;> rw [e] <;> exact if_neg hr
    rw [e, hc]
    refine iff_of_true ⟨rfl, rfl⟩ (fun m hm hr' => ?_)
    rw [← number_unique hn hm] at hr'
    exact absurd hr' hr
  · rw [hc, ho]
    refine iff_of_true ⟨rfl, rfl⟩ (fun m hm _ => ?_)
    unfold Number at hm
    rw [ho] at hm
    rcases hm with hm | hm <;> cases hm

theorem perform_array {cfg : Cfg} {K : Kind} {l : List Int} (hf : AllFits K l) (hn : (l.length : Int) ≤ ssizeMax)
    (r : Request Src) (hp : ∀ op, r.op = some op → ArrayList.Possible K op) :
    Matches (performArray cfg K l r) (pyPerform K.bits l r) (ExactCall (ArrayList.Exact cfg K l) r) := by
  have gen : ∀ op, r.op = some op → Matches (r.op.map (ArrayList.step cfg K l)) (r.op.map (Spec.step K.bits l))
      (∀ op, r.op = some op → ArrayList.Exact cfg K l op) := by
    intro op h
    have := ArrayList.step_exact cfg K l op hf hn (hp op h)
    rw [h]
    simp only [Matches, Option.map_some, Option.some.injEq, forall_eq']
    exact this
  cases r with
  | mul t => exact counted_exact (fun n => ArrayList.step_exact cfg K l (.mul n) hf hn trivial) t
  | imul t => exact counted_exact (fun n => ArrayList.step_exact cfg K l (.imul n) hf hn trivial) t
  | sort | range | iter | reversed => exact trivial
  | _ => exact gen _ rfl

theorem perform_linked {cfg : Cfg} {strict : Bool} {s : LState Int} (hf : AllFits .i32 s.vals)
    (hn : (s.vals.length : Int) ≤ ssizeMax) (r : Request Src) (hp : ∀ op, r.op = some op → LinkedList.Possible op) :
    Matches ((performLinked cfg strict s r).map LinkedList.view) (pyPerform 32 s.vals r)
      (ExactCall (LinkedList.Exact cfg strict s.vals) r) := by
  have gen : ∀ op, r.op = some op → Matches ((r.op.map (LinkedList.step cfg strict s)).map LinkedList.view)
      (r.op.map (Spec.step 32 s.vals)) (∀ op, r.op = some op → LinkedList.Exact cfg strict s.vals op) := by
    intro op h
    have := LinkedList.step_exact cfg strict s op hf hn (hp op h)
    rw [h]
    simp only [Matches, Option.map_some, Option.some.injEq, forall_eq']
    exact this
  have num : ∀ (f : Int → Op) (t : Thing Src), (∀ n, LinkedList.Possible (f n)) →
      Matches (some (LinkedList.view (match times t with
          | (_, some e) => .exc s e | (n, none) => LinkedList.step cfg strict s (f n))))
        (some (match t.arg with
        | .int n | .index n => if Spec.InRange 64 n then Spec.step 32 s.vals (f n) else (s.vals, .error .overflowError)
        | .other => (s.vals, .error .typeError)))
        (∀ n, Number t n → Spec.InRange 64 n → LinkedList.Exact cfg strict s.vals (f n)) := by
    intro f t h
    have := counted_exact (fun n => LinkedList.step_exact cfg strict s (f n) hf hn (h n)) (o := fun op =>
      LinkedList.view (LinkedList.step cfg strict s op)) t
    unfold Matches
    rw [← this]
    rcases times t with ⟨n, _ | e⟩ <;> exact Iff.rfl
  cases r with
  | mul t => exact num .mul t (fun _ => trivial)
  | imul t => exact num .imul t (fun _ => trivial)
  | sort | range | iter | reversed => exact trivial
  | _ => exact gen _ rfl

end Verif.Methods
