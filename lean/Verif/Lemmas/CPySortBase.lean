import Verif.Model.CPySort
import Verif.Lemmas.SortSpec

/-!
# Reasoning about `CPySort.M`: weakest preconditions, searches, memory moves
-/

namespace Verif.CPySort

open Verif.Spec

variable {σ ε α β : Type}

/-- `m` run from `s` does not fault and its result satisfies `Q`. -/
def Ok (m : M σ ε α) (s : St σ ε) (Q : α → St σ ε → Prop) : Prop := ∃ a s', m s = .ok (a, s') ∧ Q a s'

theorem Ok.mono {m : M σ ε α} {s : St σ ε} {Q Q' : α → St σ ε → Prop} (h : Ok m s Q)
    (hq : ∀ a s', Q a s' → Q' a s') : Ok m s Q' := by
  obtain ⟨a, s', e, q⟩ := h
  exact ⟨a, s', e, hq a s' q⟩

theorem ok_bind (m : M σ ε α) (f : α → M σ ε β) (s : St σ ε) (Q : β → St σ ε → Prop) :
    Ok (m >>= f) s Q ↔ Ok m s (fun a s' => Ok (f a) s' Q) := by
  unfold Ok
  constructor
  · rintro ⟨b, s', e, q⟩
    simp only [bind, StateT.bind, Except.bind] at e
    split at e
    · cases e
    · rename_i v hv
      exact ⟨v.1, v.2, hv, b, s', e, q⟩
  · rintro ⟨a, s', e, b, s2, e2, q⟩
    refine ⟨b, s2, ?_, q⟩
    simp only [bind, StateT.bind, Except.bind, e]
    exact e2

theorem ok_pure (a : α) (s : St σ ε) (Q : α → St σ ε → Prop) : Ok (pure a) s Q ↔ Q a s := by
  unfold Ok
  constructor
  · rintro ⟨b, s', e, q⟩
    simp only [pure, StateT.pure, Except.pure, Except.ok.injEq, Prod.mk.injEq] at e
    obtain ⟨rfl, rfl⟩ := e
    exact q
  · intro q
    exact ⟨a, s, rfl, q⟩

theorem ok_get (s : St σ ε) (Q : St σ ε → St σ ε → Prop) : Ok (get : M σ ε (St σ ε)) s Q ↔ Q s s := by
  unfold Ok
  constructor
  · rintro ⟨b, s', e, q⟩
    cases e
    exact q
  · intro q
    exact ⟨s, s, rfl, q⟩

theorem ok_modify (f : St σ ε → St σ ε) (s : St σ ε) (Q : Unit → St σ ε → Prop) :
    Ok (modify f : M σ ε Unit) s Q ↔ Q () (f s) := by
  unfold Ok
  constructor
  · rintro ⟨b, s', e, q⟩
    cases e
    exact q
  · intro q
    exact ⟨(), f s, rfl, q⟩

theorem ok_of_ok {m : M σ ε α} {s s' : St σ ε} {a : α} (e : m s = .ok (a, s')) (Q : α → St σ ε → Prop) :
    Ok m s Q ↔ Q a s' := by
  unfold Ok
  rw [e]
  constructor
  · rintro ⟨b, s2, h, q⟩
    cases h
    exact q
  · exact fun q => ⟨_, _, rfl, q⟩

theorem ok_of_error {m : M σ ε α} {s : St σ ε} {f : Fault} (e : m s = .error f) (Q : α → St σ ε → Prop) :
    ¬ Ok m s Q := by
  rintro ⟨b, s2, h, q⟩
  rw [e] at h
  cases h

theorem ok_check (b : Bool) (f : Fault) (s : St σ ε) (Q : Unit → St σ ε → Prop) :
    Ok (check b f) s Q ↔ b = true ∧ Q () s := by
  cases b with
  | false => simpa using ok_of_error (m := check false f) (f := f) rfl Q
  | true => simpa using ok_of_ok (m := check true f) (s := s) rfl Q

theorem ok_rd (a : List ε) (i : Int) (s : St σ ε) (Q : ε → St σ ε → Prop) :
    Ok (rd a i) s Q ↔ 0 ≤ i ∧ ∃ x, a[i.toNat]? = some x ∧ Q x s := by
  by_cases hi : i < 0
  · have : ¬ 0 ≤ i := by omega
    simpa [this] using ok_of_error (m := rd a i) (s := s) (f := .outOfBounds) (by simp [rd, hi]) Q
  · have h0 : 0 ≤ i := by omega
    cases h : a[i.toNat]? with
    | none => simpa using ok_of_error (m := rd a i) (s := s) (f := .outOfBounds) (by simp [rd, hi, h]) Q
    | some x => simpa [h0] using ok_of_ok (m := rd a i) (s := s) (a := x) (s' := s) (by simp [rd, hi, h]) Q

theorem ok_rdm (i : Int) (s : St σ ε) (Q : ε → St σ ε → Prop) :
    Ok (rdm i) s Q ↔ 0 ≤ i ∧ ∃ x, s.mem[i.toNat]? = some x ∧ Q x s := by
  have : Ok (rdm i) s Q ↔ Ok (rd s.mem i) s Q := Iff.rfl
  rw [this, ok_rd]

theorem ok_wr (i : Int) (x : ε) (s : St σ ε) (Q : Unit → St σ ε → Prop) :
    Ok (wr i x) s Q ↔ (0 ≤ i ∧ i.toNat < s.mem.length) ∧ Q () { s with mem := s.mem.set i.toNat x } := by
  by_cases h : 0 ≤ i ∧ i.toNat < s.mem.length
  · rw [ok_of_ok (m := wr i x) (by unfold wr; rw [if_pos h])]
    simp [h]
  · simpa [h] using ok_of_error (m := wr i x) (s := s) (by unfold wr; rw [if_neg h]) Q

theorem ok_move (dst src n : Int) (s : St σ ε) (Q : Unit → St σ ε → Prop) :
    Ok (move dst src n) s Q ↔
      (0 ≤ n ∧ 0 ≤ dst ∧ 0 ≤ src ∧ dst + n ≤ s.mem.length ∧ src + n ≤ s.mem.length) ∧
      Q () { s with mem := s.mem.take dst.toNat ++ (s.mem.drop src.toNat).take n.toNat
                              ++ s.mem.drop (dst + n).toNat } := by
  by_cases h : 0 ≤ n ∧ 0 ≤ dst ∧ 0 ≤ src ∧ dst + n ≤ s.mem.length ∧ src + n ≤ s.mem.length
  · rw [ok_of_ok (m := move dst src n) (by unfold move; rw [if_pos h])]
    simp [h]
  · simp only [h, false_and, iff_false]
    exact ok_of_error (m := move dst src n) (s := s) (by unfold move; rw [if_neg h]) Q

theorem ok_store (t : List ε) (dst src n : Int) (s : St σ ε) (Q : Unit → St σ ε → Prop) :
    Ok (store t dst src n) s Q ↔
      (0 ≤ n ∧ 0 ≤ dst ∧ 0 ≤ src ∧ dst + n ≤ s.mem.length ∧ src + n ≤ t.length) ∧
      Q () { s with mem := s.mem.take dst.toNat ++ (t.drop src.toNat).take n.toNat
                              ++ s.mem.drop (dst + n).toNat } := by
  by_cases h : 0 ≤ n ∧ 0 ≤ dst ∧ 0 ≤ src ∧ dst + n ≤ s.mem.length ∧ src + n ≤ t.length
  · rw [ok_of_ok (m := store t dst src n) (by unfold store; rw [if_pos h])]
    simp [h]
  · simp only [h, false_and, iff_false]
    exact ok_of_error (m := store t dst src n) (s := s) (by unfold store; rw [if_neg h]) Q

theorem ok_load (src n : Int) (s : St σ ε) (Q : List ε → St σ ε → Prop) :
    Ok (load src n) s Q ↔ (0 ≤ n ∧ 0 ≤ src ∧ src + n ≤ s.mem.length ∧ n ≤ s.alloced) ∧
      Q ((s.mem.drop src.toNat).take n.toNat) s := by
  by_cases h : 0 ≤ n ∧ 0 ≤ src ∧ src + n ≤ s.mem.length ∧ n ≤ s.alloced
  · rw [ok_of_ok (m := load src n) (by unfold load; rw [if_pos h])]
    simp [h]
  · simp only [h, false_and, iff_false]
    exact ok_of_error (m := load src n) (s := s) (by unfold load; rw [if_neg h]) Q

/-! ## The oracle -/

/-- The error indicator holds an exception raised by the very last callback: a comparison, or the
allocator's refusal. -/
def Raised (h : Host σ ε) (s : St σ ε) : Prop :=
  ∃ e, s.err = some e ∧
    ((∃ s0 x y, h.lt s0 x y = (.error e, s.env)) ∨
     (e = .memoryError ∧ ∃ s0 n, h.malloc s0 n = (false, s.env)))

/-- Nothing but the oracle state and the error indicator differs. -/
structure Calm (s s' : St σ ε) : Prop where
  mem : s'.mem = s.mem
  minGallop : s'.minGallop = s.minGallop
  alloced : s'.alloced = s.alloced
  pending : s'.pending = s.pending

theorem Calm.refl (s : St σ ε) : Calm s s := ⟨rfl, rfl, rfl, rfl⟩

theorem Calm.trans {a b c : St σ ε} (h : Calm a b) (h' : Calm b c) : Calm a c :=
  ⟨h'.mem.trans h.mem, h'.minGallop.trans h.minGallop, h'.alloced.trans h.alloced, h'.pending.trans h.pending⟩

/-- How a call ends: with -1 and the exception of the last callback, or normally with the error indicator
as before. -/
def Ends (h : Host σ ε) (s : St σ ε) (r : Option α) (s' : St σ ε) : Prop :=
  match r with
  | none => Raised h s'
  | some _ => s'.err = s.err

theorem Ends.trans {h : Host σ ε} {s s1 s2 : St σ ε} {r : Option α} (h1 : s1.err = s.err)
    (h2 : Ends h s1 r s2) : Ends h s r s2 := by
  cases r with
  | none => exact h2
  | some a => exact Eq.trans h2 h1

/-- The oracle's comparison is the pure relation `lt`. -/
def Pure (h : Host σ ε) (lt : ε → ε → Bool) : Prop := ∀ s x y, (h.lt s x y).1 = .ok (lt x y)

/-- A consistent comparison: `lt` is a strict weak order and the oracle answers it. -/
structure Good (h : Host σ ε) (lt : ε → ε → Bool) : Prop where
  sw : StrictWeak lt
  pure : Pure h lt

theorem ok_islt (h : Host σ ε) (lt : ε → ε → Bool) (x y : ε) (s : St σ ε)
    (Q : Option Bool → St σ ε → Prop)
    (hs : ∀ b s', Calm s s' → s'.err = s.err → (Good h lt → b = lt x y) → Q (some b) s')
    (hn : ∀ s', Calm s s' → Raised h s' → ¬ Good h lt → Q none s') : Ok (islt h x y) s Q := by
  unfold Ok islt
  cases hl : h.lt s.env x y with
  | mk r e =>
    cases r with
    | ok b =>
      refine ⟨_, _, rfl, hs b _ ⟨rfl, rfl, rfl, rfl⟩ rfl (fun g => ?_)⟩
      have := g.pure s.env x y
      rw [hl] at this
      simpa using this
    | error z =>
      refine ⟨_, _, rfl, hn _ ⟨rfl, rfl, rfl, rfl⟩ ⟨z, rfl, Or.inl ⟨s.env, x, y, hl⟩⟩ (fun g => ?_)⟩
      have := g.pure s.env x y
      rw [hl] at this
      cases this

theorem ok_isnlt (h : Host σ ε) (lt : ε → ε → Bool) (x y : ε) (s : St σ ε)
    (Q : Option Bool → St σ ε → Prop)
    (hs : ∀ b s', Calm s s' → s'.err = s.err → (Good h lt → b = !lt x y) → Q (some b) s')
    (hn : ∀ s', Calm s s' → Raised h s' → ¬ Good h lt → Q none s') : Ok (isnlt h x y) s Q := by
  unfold isnlt
  rw [ok_bind]
  refine ok_islt h lt x y s _ (fun b s' c e g => ?_) (fun s' c e g => ?_)
  · rw [ok_pure]
    exact hs _ _ c e (fun gg => by simp [g gg])
  · rw [ok_pure]
    exact hn _ c e g

/-- A probe of a search: it only consults the oracle, and its answer is `p i` when the oracle is
consistent. -/
def Probe (h : Host σ ε) (lt : ε → ε → Bool) (probe : Int → M σ ε (Option Bool)) (p : Int → Bool) (i : Int) : Prop :=
  ∀ s, Ok (probe i) s (fun r s' => Calm s s' ∧ Ends h s r s' ∧ ∀ b, r = some b → Good h lt → b = p i)

theorem scan_spec (h : Host σ ε) (lt : ε → ε → Bool) (probe : Int → M σ ε (Option Bool)) (q : Int → Bool)
    (maxofs : Int) (hmax : maxofs ≤ 2 ^ 60)
    (hp : ∀ i, 0 < i → i < maxofs → Probe h lt probe q i) :
    ∀ (f : Nat) (lastofs ofs : Int) (s : St σ ε), 0 ≤ lastofs → lastofs < maxofs → lastofs < ofs →
      (maxofs - ofs).toNat + 1 ≤ f → (Good h lt → q lastofs = true) →
      Ok (scan probe maxofs f lastofs ofs) s (fun r s' => Calm s s' ∧ Ends h s r s' ∧
        ∀ l o, r = some (l, o) → 0 ≤ l ∧ l < maxofs ∧ l < o ∧ (Good h lt → q l = true) ∧
          (o < maxofs → Good h lt → q o = false)) := by
  intro f
  induction f with
  | zero => intro l o s _ _ _ hf; omega
  | succ f ih =>
    intro l o s h0 hl hlo hf hq
    unfold scan
    split
    · rename_i hlt
      rw [ok_bind]
      refine (hp o (by omega) hlt s).mono ?_
      rintro r s1 ⟨c, e, g⟩
      match r with
      | none =>
        simp only [ok_pure]
        exact ⟨c, e, by simp⟩
      | some true =>
        simp only [ok_bind, ok_check, decide_eq_true_eq]
        refine ⟨by simp only [ssizeMax]; omega, ?_⟩
        refine (ih o (2 * o + 1) s1 (by omega) hlt (by omega) (by omega) (fun gg => (g _ rfl gg).symm)).mono ?_
        rintro r s2 ⟨c2, e2, g2⟩
        exact ⟨c.trans c2, Ends.trans e e2, g2⟩
      | some false =>
        simp only [ok_pure]
        refine ⟨c, e, ?_⟩
        intro l' o' he
        simp only [Option.some.injEq, Prod.mk.injEq] at he
        obtain ⟨rfl, rfl⟩ := he
        exact ⟨h0, hl, hlo, hq, fun _ gg => (g _ rfl gg).symm⟩
    · rename_i hlt
      rw [ok_pure]
      refine ⟨Calm.refl _, rfl, ?_⟩
      intro l' o' he
      simp only [Option.some.injEq, Prod.mk.injEq] at he
      obtain ⟨rfl, rfl⟩ := he
      exact ⟨h0, hl, hlo, hq, fun hh => absurd hh hlt⟩

theorem bisect_spec (h : Host σ ε) (lt : ε → ε → Bool) (probe : Int → M σ ε (Option Bool)) (p : Int → Bool)
    (lo hi : Int) (hp : ∀ i, lo ≤ i → i < hi → Probe h lt probe p i)
    (mono : Good h lt → ∀ i j, lo ≤ i → i ≤ j → j < hi → p i = true → p j = true) :
    ∀ (f : Nat) (l o : Int) (s : St σ ε), lo ≤ l → l ≤ o → o ≤ hi → (o - l).toNat + 1 ≤ f →
      (Good h lt → ∀ i, lo ≤ i → i < l → p i = false) → (Good h lt → ∀ i, o ≤ i → i < hi → p i = true) →
      Ok (bisect probe f l o) s (fun r s' => Calm s s' ∧ Ends h s r s' ∧
        ∀ k, r = some k → lo ≤ k ∧ k ≤ hi ∧
          (Good h lt → (∀ i, lo ≤ i → i < k → p i = false) ∧ (∀ i, k ≤ i → i < hi → p i = true))) := by
  intro f
  induction f with
  | zero => intro l o s _ _ _ hf; omega
  | succ f ih =>
    intro l o s h1 h2 h3 hf hl ho
    unfold bisect
    split
    · rename_i hlt
      simp only [ok_bind]
      have hm1 : l ≤ l + (o - l) / 2 := by omega
      have hm2 : l + (o - l) / 2 < o := by omega
      generalize l + (o - l) / 2 = m at hm1 hm2
      refine (hp m (by omega) (by omega) s).mono ?_
      rintro r s1 ⟨c, e, g⟩
      match r with
      | none =>
        simp only [ok_pure]
        exact ⟨c, e, by simp⟩
      | some true =>
        simp only
        refine (ih l m s1 (by omega) (by omega) (by omega) (by omega) hl ?_).mono ?_
        · intro gg i hi1 hi2
          exact mono gg m i (by omega) hi1 hi2 (g _ rfl gg).symm
        · rintro r s2 ⟨c2, e2, g2⟩
          exact ⟨c.trans c2, Ends.trans e e2, g2⟩
      | some false =>
        simp only
        refine (ih (m + 1) o s1 (by omega) (by omega) (by omega) (by omega) ?_ ho).mono ?_
        · intro gg i hi1 hi2
          cases hpi : p i with
          | false => rfl
          | true =>
            have := mono gg i m hi1 (by omega) (by omega) hpi
            rw [← g _ rfl gg] at this
            cases this
        · rintro r s2 ⟨c2, e2, g2⟩
          exact ⟨c.trans c2, Ends.trans e e2, g2⟩
    · rename_i hlt
      simp only [ok_bind, ok_check, ok_pure, decide_eq_true_eq]
      refine ⟨by omega, Calm.refl _, rfl, ?_⟩
      intro k hk
      simp only [Option.some.injEq] at hk
      subst hk
      have : l = o := by omega
      subst this
      exact ⟨by omega, by omega, fun gg => ⟨hl gg, ho gg⟩⟩

end Verif.CPySort
