import Verif.Lemmas.CPySortKeeps

/-!
# A raised exception is never swallowed

`flag` observes the oracle's state. Callbacks that return normally do not turn it on. Then it is on after
a computation only if it was on before or the error indicator is set.
-/

namespace Verif.CPySort

variable {σ ε κ ν α β : Type}

/-- Only raising callbacks turn `flag` on. -/
structure Flags (h : Host σ ε) (flag : σ → Bool) : Prop where
  lt : ∀ s x y b s', h.lt s x y = (.ok b, s') → flag s' = true → flag s = true
  malloc : ∀ s n s', h.malloc s n = (true, s') → flag s' = true → flag s = true

/-- The error indicator stays set, and the flag does not go on silently. -/
def Sticky (flag : σ → Bool) (s s' : St σ ε) : Prop :=
  (s.err.isSome → s'.err.isSome) ∧ (flag s'.env = true → flag s.env = true ∨ s'.err.isSome)

theorem Sticky.refl (flag : σ → Bool) (s : St σ ε) : Sticky flag s s := ⟨id, Or.inl⟩

theorem Sticky.trans {flag : σ → Bool} {a b c : St σ ε} (h : Sticky flag a b) (h' : Sticky flag b c) : Sticky flag a c := by
  refine ⟨fun x => h'.1 (h.1 x), fun x => ?_⟩
  rcases h'.2 x with y | y
  · rcases h.2 y with z | z
    · exact Or.inl z
    · exact Or.inr (h'.1 z)
  · exact Or.inr y

variable {flag : σ → Bool} {h : Host σ ε}

theorem Flags.stable (hf : Flags h flag) : Stable h (Sticky flag) where
  same s s' h1 h2 := ⟨fun x => by rw [h2]; exact x, fun x => by rw [h1] at x; exact Or.inl x⟩
  trans _ _ _ := Sticky.trans
  ltOk s x y b e hl := ⟨id, fun q => Or.inl (hf.lt _ _ _ _ _ hl q)⟩
  ltErr s x y z e hl := ⟨fun _ => rfl, fun _ => Or.inr rfl⟩
  tooBig s := ⟨fun _ => rfl, fun _ => Or.inr rfl⟩
  mallocOk s n e hl := ⟨id, fun q => Or.inl (hf.malloc _ _ _ hl q)⟩
  mallocErr s n e hl := ⟨fun _ => rfl, fun _ => Or.inr rfl⟩

/-- After a sort without error indicator the flag is on only if it was on before. -/
theorem sortSlots_quiet (hf : Flags h flag) (env env' : σ) (O out : List ε) (rev ok : Bool)
    (hr : sortSlots h env O rev = .ok (ok, out, env', none)) (hon : flag env' = true) : flag env = true := by
  obtain ⟨s, s', h1, rfl, _, rfl, he⟩ := sortSlots_stable hf.stable _ _ _ _ _ _ _ hr
  rcases h1.2 hon with q | q
  · exact q
  · rw [he] at q
    cases q

theorem keysOf_quiet {c : Caller σ κ ν} (hf : CallFlags c flag) : ∀ (l : List ν) (env env' : σ) (ks : List κ),
    keysOf c env l = (.ok ks, env') → flag env' = true → flag env = true := by
  intro l
  induction l with
  | nil => intro env env' ks h; simp only [keysOf] at h; cases h; exact id
  | cons x xs ih =>
    intro env env' ks h
    simp only [keysOf] at h
    split at h
    · cases h
    · rename_i h1
      split at h
      · cases h
      · rename_i h2
        cases h
        exact fun q => hf.key _ _ _ _ h1 (ih _ _ _ h2 q)

theorem sortKeyed_quiet {c : Caller σ κ ν} (hf : CallFlags c flag) (env env' : σ) (l out : List ν) (rev ok : Bool)
    (hr : sortKeyed c env l rev = .ok (ok, out, env', none)) (hon : flag env' = true) : flag env = true := by
  unfold sortKeyed at hr
  generalize hgot : (if l.length < 256 / 2 then (true, env) else c.malloc env l.length) = got at hr
  obtain ⟨got, env1⟩ := got
  cases got with
  | false => simp at hr
  | true =>
    have h1 : flag env1 = true → flag env = true := by
      split at hgot
      · cases hgot; exact id
      · exact hf.malloc _ _ _ hgot
    simp only [Bool.not_true, Bool.false_eq_true, if_false] at hr
    split at hr
    · cases hr
    · rename_i ks env2 hk
      simp only [bind, Except.bind] at hr
      split at hr
      · cases hr
      · rename_i v hv
        obtain ⟨ok', sl, e', er⟩ := v
        cases hr
        have hfl : Flags (keyedHost c) flag := ⟨fun s x y => hf.lt s x.1 y.1, hf.malloc⟩
        exact h1 (keysOf_quiet hf l _ _ _ hk (sortSlots_quiet hfl _ _ _ _ _ _ hv hon))

theorem sortPlain_quiet {c : Caller σ κ κ} (h1 : ∀ s x y b s', c.lt s x y = (.ok b, s') → flag s' = true → flag s = true)
    (h2 : ∀ s n s', c.malloc s n = (true, s') → flag s' = true → flag s = true) (env env' : σ) (l out : List κ) (rev ok : Bool)
    (hr : sortPlain c env l rev = .ok (ok, out, env', none)) (hon : flag env' = true) : flag env = true :=
  sortSlots_quiet (h := plainHost c) ⟨h1, h2⟩ _ _ _ _ _ _ hr hon

end Verif.CPySort
