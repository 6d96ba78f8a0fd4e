import Verif.Model.Import
import Verif.Spec.Import

/-! Helper lemmas for the import of the package. -/

namespace Verif.Import

open Spec

/-- The inner modules that were made but not added. -/
def lost (env : ImportEnv) (c : Cls) : Bool := (env.inner c).create && (env.inner c).addClass && !(env.inner c).addModule

def fine (env : ImportEnv) (c : Cls) : Bool := decide (Luck.Fine (env.inner c))

/-- The exception set at the end. -/
def errAfter (py : PyVer) (env : ImportEnv) : List Cls → Option Exc → Option Exc
  | [], e => e
  | c :: cs, e => errAfter py env cs (if fine env c then afterGc py (env.inner c) e else some .memoryError)

theorem addInner_eq (py : PyVer) (env : ImportEnv) (c : Cls) (n : List (Cls × Cls)) (l : List Cls) (e : Option Exc) :
    addInner py (env.inner c) c (n, l, e) =
      (n ++ (if fine env c then [(c, c)] else []), l ++ (if lost env c then [c] else []),
        if fine env c then afterGc py (env.inner c) e else some .memoryError) := by
  unfold addInner inner fine lost Luck.Fine
  generalize env.inner c = lk
  obtain ⟨g, a, b, d⟩ := lk
  cases a <;> cases b <;> cases d <;> simp

theorem addAll_eq (py : PyVer) (env : ImportEnv) : ∀ (cs : List Cls) (n : List (Cls × Cls)) (l : List Cls) (e : Option Exc),
    addAll py env cs (n, l, e) =
      (n ++ (cs.filter (fine env)).map (fun c => (c, c)), l ++ cs.filter (lost env), errAfter py env cs e) := by
  intro cs
  induction cs with
  | nil => intro n l e; simp [addAll, errAfter]
  | cons c cs ih =>
    intro n l e
    rw [addAll, addInner_eq, ih, errAfter]
    cases h1 : fine env c <;> cases h2 : lost env c <;> simp [h1, h2]

/-- What a collection forgets. -/
def forgets (py : PyVer) : Bool := decide (py = .le311)

theorem afterGc_eq (py : PyVer) (lk : Luck) (e : Option Exc) :
    afterGc py lk e = if forgets py = true ∧ lk.gc = true then none else e := by
  unfold afterGc forgets
  simp

theorem errAfter_none (py : PyVer) (env : ImportEnv) : ∀ (cs : List Cls) (e : Option Exc),
    errAfter py env cs e = none ↔
      (e = none ∨ ∃ d ∈ cs, forgets py = true ∧ (env.inner d).gc = true) ∧ ¬ Noticed (forgets py) env cs := by
  intro cs
  induction cs with
  | nil =>
    intro e
    simp only [errAfter, List.not_mem_nil, false_and, exists_false, or_false]
    constructor
    · intro h
      refine ⟨h, ?_⟩
      rintro ⟨pre, c, post, h, _⟩
      cases pre <;> cases h
    · exact fun h => h.1
  | cons c cs ih =>
    intro e
    rw [errAfter, ih]
    have hn : Noticed (forgets py) env (c :: cs) ↔
        Noticed (forgets py) env cs ∨ (¬ Luck.Fine (env.inner c) ∧ ∀ d ∈ cs, ¬ (forgets py = true ∧ (env.inner d).gc = true)) := by
      constructor
      · rintro ⟨pre, d, post, h, h1, h2⟩
        cases pre with
        | nil => cases h; exact Or.inr ⟨h1, h2⟩
        | cons a pre =>
          cases h
          exact Or.inl ⟨pre, d, post, rfl, h1, h2⟩
      · rintro (⟨pre, d, post, h, h1, h2⟩ | ⟨h1, h2⟩)
        · exact ⟨c :: pre, d, post, by rw [h]; rfl, h1, h2⟩
        · exact ⟨[], c, cs, rfl, h1, h2⟩
    rw [hn]
    by_cases hf : Luck.Fine (env.inner c)
    · have : fine env c = true := decide_eq_true hf
      rw [if_pos this, afterGc_eq]
      simp only [hf, not_true_eq_false, false_and, or_false, List.mem_cons, exists_eq_or_imp]
      by_cases hg : forgets py = true ∧ (env.inner c).gc = true
      · simp [hg]
      · simp [hg]
    · have : fine env c = false := decide_eq_false hf
      rw [this]
      simp only [Bool.false_eq_true, if_false, reduceCtorEq, false_or, hf, not_false_eq_true, true_and, List.mem_cons, exists_eq_or_imp,
        not_or]
      constructor
      · rintro ⟨⟨d, hd, hg⟩, h2⟩
        exact ⟨Or.inr (Or.inr ⟨d, hd, hg⟩), h2, fun h => h d hd hg⟩
      · rintro ⟨_, h2, h3⟩
        refine ⟨?_, h2⟩
        simp only [Classical.not_forall] at h3
        obtain ⟨d, hd, hg⟩ := h3
        exact ⟨d, hd, Classical.not_not.1 hg⟩

/-- The inner modules in `sys.modules` offer their own classes. -/
def Inv (p : Proc) : Prop := ∀ names, p.sys = some names → ∃ cs : List Cls, names = cs.map fun c => (c, c)

theorem lookup_diag (cs : List Cls) (c : Cls) : (cs.map fun c => (c, c)).lookup c = if c ∈ cs then some c else none := by
  induction cs with
  | nil => rfl
  | cons a as ih =>
    rw [List.map_cons, List.lookup_cons]
    by_cases h : c = a
    · subst h; simp
    · have : (c == a) = false := by simpa using h
      rw [this, ih]
      simp [h]

theorem take_diag (cs : List Cls) : ∀ ws : List Cls,
    take (cs.map fun c => (c, c)) ws = if ∀ c ∈ ws, c ∈ cs then some (ws.map fun c => (c, c)) else none := by
  intro ws
  induction ws with
  | nil => simp [take]
  | cons w ws ih =>
    rw [take, lookup_diag, ih]
    by_cases h1 : w ∈ cs
    · by_cases h2 : ∀ c ∈ ws, c ∈ cs
      · simp [h1]
        simp [if_pos h2]
      · simp [h1]
        simp [if_neg h2]
    · simp [h1]

theorem wanted_offers (g : Pkg) (c : Cls) : c ∈ wanted g ↔ c ∈ offers g := by
  cases g <;> cases c <;> decide

theorem right_wanted (g : Pkg) : RightNames g ((wanted g).map fun c => (c, c)) := by
  intro c
  rw [lookup_diag]
  simp only [wanted_offers]

theorem initMarks_sys {cfg : Cfg} {env : ImportEnv} {p q : Proc} (h : initMarks cfg env p = some q) :
    q.sys = p.sys ∧ q.leaked = p.leaked := by
  unfold initMarks at h
  split at h
  · cases h
  · dsimp only at h
    split at h
    · cases h
    · cases h; exact ⟨rfl, rfl⟩

theorem importExt_inv {cfg : Cfg} {env : ImportEnv} {p q : Proc} {r : Except Exc (List (Cls × Cls))} (hp : Inv p)
    (h : importExt cfg env p = some (q, r)) : Inv q ∧ (∀ names, r = .ok names → q.sys = some names) := by
  unfold importExt at h
  split at h
  · next names hs =>
    cases h
    exact ⟨hp, fun n hn => by cases hn; exact hs⟩
  · next hs =>
    split at h
    · cases h
    · next p1 hm =>
      obtain ⟨h1, _⟩ := initMarks_sys hm
      split at h
      · cases h
        exact ⟨fun n hn => (by rw [h1, hs] at hn; cases hn), fun n hn => by cases hn⟩
      · rw [addAll_eq] at h
        split at h
        · cases h
          exact ⟨fun n hn => (by dsimp only at hn; rw [h1, hs] at hn; cases hn), fun n hn => by cases hn⟩
        · next names leaked e1 =>
          have e2 := congrArg (·.1) e1
          dsimp only [List.nil_append] at e2
          cases h
          refine ⟨fun n hn => ?_, fun n hn => by cases hn; rfl⟩
          cases hn
          exact ⟨_, e2.symm⟩

theorem importPkg_inv {cfg : Cfg} {env : ImportEnv} {p q : Proc} {g : Pkg} (hp : Inv p) (h : (importPkg cfg env p g).1 = some q) : Inv q := by
  unfold importPkg at h
  split at h
  · cases h
  · next p1 e he => cases h; exact (importExt_inv hp he).1
  · next p1 names he =>
    have := (importExt_inv hp he).1
    split at h <;> cases h <;> exact this

theorem after_inv {cfg : Cfg} : ∀ (es : List (Pkg × ImportEnv)) {p q : Proc}, Inv p → after cfg p es = some q → Inv q := by
  intro es
  induction es with
  | nil => intro p q hp h; cases h; exact hp
  | cons x es ih =>
    obtain ⟨g, env⟩ := x
    intro p q hp h
    rw [after] at h
    split at h
    · cases h
    · next p1 a he =>
      exact ih (importPkg_inv hp (by rw [he])) h

theorem inv_fresh : Inv Proc.fresh := fun n hn => by cases hn

end Verif.Import
