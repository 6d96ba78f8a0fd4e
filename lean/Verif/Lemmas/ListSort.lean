import Verif.Lemmas.CPySortSticky
import Verif.Lemmas.Stored
import Verif.Lemmas.IntLinkedList

/-!
# `sort` of the list classes
-/

namespace Verif.ListSort

open Verif.Spec CPySort

variable {σ κ ν : Type}

theorem call_spec (c : Call σ κ ν) (env : σ) (l : List ν) (rev : Bool) (hmax : l.length < 2 ^ 60) :
    ∃ ok out env' err, c.sort env l rev = .ok (ok, out, env', err) ∧ out.Perm l ∧
      (ok = false → ∃ e, err = some e ∧ c.Raised env' e) ∧ (ok = true → err = none) ∧
      (∀ lt, c.Order lt → ok = true → StableSort (dir lt rev) l out) ∧
      (∀ flag, c.Flags flag → flag env = false → err = none → flag env' = false) := by
  cases c with
  | keyed c =>
    obtain ⟨ok, out, env', err, h1, h2, h3, h4, h5⟩ := sortKeyed_spec c env l rev hmax
    refine ⟨ok, out, env', err, h1, h2, h3, h4, ?_, ?_⟩
    · rintro lt ⟨kf, ltk, ho, rfl⟩ ht
      exact h5 kf ltk ho.key ho.lt ho.weak ht
    · intro flag hf h0 he
      subst he
      cases hx : flag env' with
      | false => rfl
      | true => rw [sortKeyed_quiet hf _ _ _ _ _ _ h1 hx] at h0; cases h0
  | plain c =>
    obtain ⟨ok, out, env', err, h1, h2, h3, h4, h5⟩ := sortPlain_spec c env l rev hmax
    refine ⟨ok, out, env', err, h1, h2, h3, h4, fun lt ho ht => h5 lt ho.2 ho.1 ht, ?_⟩
    intro flag hf h0 he
    subst he
    cases hx : flag env' with
    | false => rfl
    | true => rw [sortPlain_quiet hf.1 hf.2 _ _ _ _ _ _ h1 hx] at h0; cases h0

/-- Well-behaved comparisons never raise. -/
theorem order_not_raised (c : Call σ κ ν) (lt : ν → ν → Bool) (ho : c.Order lt) (hm : c.MemOk)
    (env : σ) (e : Exc) : ¬ c.Raised env e := by
  cases c with
  | keyed c =>
    obtain ⟨kf, ltk, ho, rfl⟩ := ho
    rintro (⟨s, x, h⟩ | ⟨s, x, y, h⟩ | ⟨_, s, n, h⟩)
    · have := ho.key s x; rw [h] at this; cases this
    · have := ho.lt s x y; rw [h] at this; cases this
    · have := hm s n; rw [Call.malloc, h] at this; cases this
  | plain c =>
    rintro (⟨s, x, y, h⟩ | ⟨_, s, n, h⟩)
    · have := ho.2 s x y; rw [h] at this; cases this
    · have := hm s n; rw [Call.malloc, h] at this; cases this

/-! ## Through objects and back -/

theorem unbox_box (K : Kind) (py : PyVer) (v : Int) (hv : FitsS K.bits v) :
    unbox K py (box K py v) = (sent K py v, if Lost K py v then some .overflowError else none) := by
  cases K with
  | i64 =>
    have h : FitsS 64 v := hv
    simp only [unbox, box, canon_value, if_pos h, sent, Lost]
    simp
  | i32 =>
    have h : FitsS 32 v := hv
    rw [fits32] at h
    cases py with
    | le311 =>
      simp only [unbox, box, fromInt, asInt, sent, Lost, canon]
      rcases Int.lt_trichotomy v 0 with hn | rfl | hp
      · rw [Int.sign_eq_neg_one_of_neg hn, digits30, dif_neg (by omega)]
        have hd : wrapS 32 ((v.natAbs % 2 ^ 30 : Nat) : Int) = ((v.natAbs % 2 ^ 30 : Nat) : Int) :=
          wrapS_of_fits .i32 (by simp only [Kind.bits, fits32]; omega)
        simp only [hd]
        have e1 : v.tmod (2 ^ 30) = -(((-v) % 2 ^ 30)) := by
          have : v = -(-v) := by omega
          rw [this, Int.neg_tmod, Int.tmod_eq_emod_of_nonneg (by omega)]
          simp
        rw [e1]
        simp
        omega
      · simp [Int.sign]
      · rw [Int.sign_eq_one_of_pos hp, digits30, dif_neg (by omega)]
        have hd : wrapS 32 ((v.natAbs % 2 ^ 30 : Nat) : Int) = ((v.natAbs % 2 ^ 30 : Nat) : Int) :=
          wrapS_of_fits .i32 (by simp only [Kind.bits, fits32]; omega)
        simp only [hd]
        rw [Int.tmod_eq_emod_of_nonneg (by omega)]
        simp
        omega
    | v312 | ge313 =>
      have hval : (box .i32 .v312 v).value = if v < 0 then -(2 ^ 32 + v) else v := by
        simp only [box, fromInt, PyLong.value, digitsVal]
        split <;> omega
      have hval' : (box .i32 .ge313 v).value = if v < 0 then -(2 ^ 32 + v) else v := hval
      simp only [unbox, asInt, hval, hval', sent, Lost]
      by_cases hl : v < 0 ∧ v ≠ -(2 ^ 31)
      · rw [if_pos hl.1, if_neg (by rw [fits32]; omega), if_pos hl]
        simp [hl.1]; omega
      · rw [if_neg hl, if_pos (by rw [fits32]; split <;> omega)]
        simp only [hl]
        congr 1
        split <;> omega

theorem writeBack_eq (K : Kind) (py : PyVer) : ∀ (l : List Int), (∀ v ∈ l, FitsS K.bits v) → ∀ e,
    writeBack K py (l.map (box K py)) e = (l.map (sent K py), if l.any (Lost K py) then some .overflowError else e) := by
  intro l
  induction l with
  | nil => intro _ e; rfl
  | cons v l ih =>
    intro h e
    simp only [List.map_cons, writeBack, unbox_box K py v (h v (by simp))]
    rw [ih (fun w hw => h w (by simp [hw]))]
    simp only [List.any_cons]
    by_cases h1 : Lost K py v = true <;> by_cases h2 : l.any (Lost K py) = true <;> simp [h1, h2]

theorem box_inj (K : Kind) (py : PyVer) {v w : Int} (hv : FitsS K.bits v) (hw : FitsS K.bits w) (h : box K py v = box K py w) :
    v = w := by
  cases K with
  | i64 => exact canon_inj h
  | i32 =>
    simp only [Kind.bits, fits32] at hv hw
    cases py with
    | le311 => exact canon_inj h
    | v312 | ge313 =>
      simp only [box, fromInt, PyLong.mk.injEq, List.cons.injEq, and_true] at h
      omega

/-- Boxed elements sorted come from elements sorted. -/
theorem perm_boxed (K : Kind) (py : PyVer) (l : List Int) (out : List PyLong) (h : out.Perm (l.map (box K py))) :
    ∃ l' : List Int, out = l'.map (box K py) ∧ l'.Perm l := by
  generalize hm : l.map (box K py) = m at h
  induction h generalizing l with
  | nil => exact ⟨[], rfl, by rw [List.map_eq_nil_iff.1 hm]⟩
  | cons x _ ih =>
    obtain ⟨v, vs, rfl, rfl, h2⟩ := List.map_eq_cons_iff.1 hm
    obtain ⟨l', rfl, p⟩ := ih vs h2
    exact ⟨v :: l', rfl, p.cons v⟩
  | swap x y t =>
    obtain ⟨v, vs, rfl, rfl, h2⟩ := List.map_eq_cons_iff.1 hm
    obtain ⟨w, ws, rfl, rfl, rfl⟩ := List.map_eq_cons_iff.1 h2
    exact ⟨w :: v :: ws, rfl, List.Perm.swap ..⟩
  | trans _ _ ih1 ih2 =>
    obtain ⟨l2, rfl, p2⟩ := ih2 l hm
    obtain ⟨l1, rfl, p1⟩ := ih1 l2 rfl
    exact ⟨l1, rfl, p1.trans p2⟩

/-- A stable sort of images under an order that looks at the images is one of the elements. -/
theorem stable_preimage {α β : Type} (f : α → β) (lt : β → β → Bool) (l out : List α)
    (hp : out.Perm l) (hinj : ∀ x ∈ l, ∀ y ∈ l, f x = f y → x = y) (h : StableSort lt (l.map f) (out.map f)) :
    StableSort (fun x y => lt (f x) (f y)) l out := by
  obtain ⟨_, s, o⟩ := h
  refine ⟨hp, ?_, ?_⟩
  · unfold SortedBy at s ⊢
    rwa [List.pairwise_map] at s
  · intro x
    have := o (f x)
    rw [List.filter_map, List.filter_map] at this
    have hc : (equivBy lt (f x) ∘ f) = equivBy (fun x y => lt (f x) (f y)) x := by
      funext y; rfl
    rw [hc] at this
    have hmem : ∀ (a b : List α), (∀ x ∈ a, x ∈ l) → (∀ x ∈ b, x ∈ l) → a.map f = b.map f → a = b := by
      intro a
      induction a with
      | nil => intro b _ _ e; exact (List.map_eq_nil_iff.1 e.symm).symm
      | cons y a ih =>
        intro b ha hb e
        cases b with
        | nil => cases e
        | cons z b =>
          simp only [List.map_cons, List.cons.injEq] at e
          rw [hinj y (ha y (by simp)) z (hb z (by simp)) e.1,
            ih b (fun x hx => ha x (by simp [hx])) (fun x hx => hb x (by simp [hx])) e.2]
    exact hmem _ _ (fun y hy => hp.mem_iff.1 (List.mem_filter.1 hy).1) (fun y hy => (List.mem_filter.1 hy).1) this

/-- Orders that agree on the elements give the same stable sorts. -/
theorem stable_congr {α : Type} {lt lt' : α → α → Bool} {l out : List α} (sw : StrictWeak lt') (h : ∀ x ∈ l, ∀ y ∈ l, lt x y = lt' x y)
    (hs : StableSort lt l out) : StableSort lt' l out := by
  obtain ⟨p, s, o⟩ := hs
  refine ⟨p, ?_, ?_⟩
  · unfold SortedBy at s ⊢
    refine s.imp_of_mem ?_
    intro a b ha hb hab
    rw [← h b (p.mem_iff.1 hb) a (p.mem_iff.1 ha)]
    exact hab
  · have key : ∀ x ∈ l, out.filter (equivBy lt' x) = l.filter (equivBy lt' x) := by
      intro x hx
      have e : ∀ n : List α, (∀ y ∈ n, y ∈ l) → n.filter (equivBy lt' x) = n.filter (equivBy lt x) := by
        intro n hn
        refine List.filter_congr ?_
        intro y hy
        simp only [equivBy, h x hx y (hn y hy), h y (hn y hy) x hx]
      rw [e out (fun y hy => p.mem_iff.1 hy), e l (fun y hy => hy), o x]
    intro x
    by_cases hx : ∃ y ∈ l, equivBy lt' x y = true
    · obtain ⟨y, hy, hxy⟩ := hx
      have : equivBy lt' x = equivBy lt' y := by
        simp only [equivBy, Bool.and_eq_true, Bool.not_eq_true'] at hxy
        funext z
        rw [Bool.eq_iff_iff]
        simp only [equivBy, Bool.and_eq_true, Bool.not_eq_true']
        exact ⟨fun q => ⟨sw.negTrans _ _ _ hxy.2 q.1, sw.negTrans _ _ _ q.2 hxy.1⟩,
          fun q => ⟨sw.negTrans _ _ _ hxy.1 q.1, sw.negTrans _ _ _ q.2 hxy.2⟩⟩
      rw [this]
      exact key y hy
    · rw [List.filter_eq_nil_iff.2 (fun y hy => fun q => hx ⟨y, p.mem_iff.1 hy, q⟩),
        List.filter_eq_nil_iff.2 (fun y hy => fun q => hx ⟨y, hy, q⟩)]

/-- `sort(key=…)` of the int lists, for every caller. -/
theorem intArray_spec (K : Kind) (py : PyVer) (c : Caller σ κ PyLong) (env : σ) (l : List Int) (rev : Bool)
    (hf : ∀ v ∈ l, FitsS K.bits v) (hmax : l.length < 2 ^ 60) :
    (∃ env', intArray K py c env l rev = .ok (.exc l .memoryError, env') ∧ c.malloc env l.length = (false, env')) ∨
    ∃ env1 srt env' err, c.malloc env l.length = (true, env1) ∧ srt.Perm l ∧
      intArray K py c env l rev =
        .ok (finish (srt.map (sent K py)) (if l.any (Lost K py) then some .overflowError else err), env') ∧
      (∀ e, err = some e → CallerRaised c env' e) ∧
      (∀ kf lt, Ordered c kf lt → err = none → StableSort (dir (fun x y => lt (kf (box K py x)) (kf (box K py y))) rev) l srt) ∧
      (∀ flag, CallFlags c flag → flag env1 = false → err = none → flag env' = false) := by
  match hm : c.malloc env l.length with
  | (false, env') => exact Or.inl ⟨env', by unfold intArray; rw [hm], rfl⟩
  | (true, env1) =>
    right
    obtain ⟨ok, out, env', err, h1, h2, h3, h4, h5⟩ := sortKeyed_spec c env1 (l.map (box K py)) rev (by simpa using hmax)
    obtain ⟨srt, rfl, hp⟩ := perm_boxed K py l out h2
    refine ⟨env1, srt, env', err, rfl, hp, ?_, ?_, ?_, ?_⟩
    · unfold intArray
      rw [hm]
      simp only [h1, bind, Except.bind]
      rw [writeBack_eq K py srt (fun v hv => hf v (hp.mem_iff.1 hv))]
      have : srt.any (Lost K py) = l.any (Lost K py) := by
        rw [Bool.eq_iff_iff, List.any_eq_true, List.any_eq_true]
        constructor
        · rintro ⟨x, a, b⟩; exact ⟨x, hp.mem_iff.1 a, b⟩
        · rintro ⟨x, a, b⟩; exact ⟨x, hp.mem_iff.2 a, b⟩
      rw [this]
      rfl
    · rintro e rfl
      cases ok with
      | true => cases h4 rfl
      | false =>
        obtain ⟨e', he, hr⟩ := h3 rfl
        cases he
        exact hr
    · intro kf lt ho he
      have hok : ok = true := by
        cases ok with
        | true => rfl
        | false =>
          obtain ⟨e', h, _⟩ := h3 rfl
          rw [h] at he; cases he
      have := h5 kf lt ho.key ho.lt ho.weak hok
      have hinj : ∀ x ∈ l, ∀ y ∈ l, box K py x = box K py y → x = y := fun x hx y hy e => box_inj K py (hf x hx) (hf y hy) e
      cases rev with
      | false => exact stable_preimage (box K py) (fun x y => lt (kf x) (kf y)) l srt hp hinj this
      | true => exact stable_preimage (box K py) (fun x y => lt (kf y) (kf x)) l srt hp hinj this
    · intro flag hfl h0 he
      subst he
      cases hx : flag env' with
      | false => rfl
      | true => rw [sortKeyed_quiet hfl _ _ _ _ _ _ h1 hx] at h0; cases h0

theorem sendable_box {K : Kind} {py : PyVer} {v : Int} (hv : FitsS K.bits v) (h : Sendable K py v) :
    box K py v = canon v ∧ sent K py v = v ∧ Lost K py v = false := by
  refine ⟨?_, ?_, ?_⟩
  · refine (box_eq_canon_iff ⟨py, false, false, false, false⟩ K hv).2 ?_
    rcases h with h | ⟨h, _⟩ | h
    · exact Or.inl h
    · exact Or.inr (Or.inl h)
    · exact Or.inr (Or.inr h)
  · cases K with
    | i64 => rfl
    | i32 =>
      cases py with
      | le311 =>
        have hb : -(2 ^ 30) < v ∧ v < 2 ^ 30 := by
          rcases h with h | ⟨_, h⟩ | h
          · cases h
          · exact h
          · omega
        show v.tmod (2 ^ 30) = v
        by_cases hn : 0 ≤ v
        · rw [Int.tmod_eq_emod_of_nonneg hn]; omega
        · have : v = -(-v) := by omega
          rw [this, Int.neg_tmod, Int.tmod_eq_emod_of_nonneg (by omega)]
          omega
      | v312 | ge313 =>
        have hb : 0 < v := by
          rcases h with h | ⟨h, _⟩ | h
          · cases h
          · cases h
          · exact h.1
        simp only [sent]
        rw [if_neg (by omega)]
  · unfold Lost
    rcases h with rfl | ⟨rfl, _⟩ | h
    · rfl
    · simp
    · have : ¬ (v < 0 ∧ v ≠ -(2 ^ 31)) := by omega
      simp only [this, decide_false, Bool.and_false]

end Verif.ListSort
