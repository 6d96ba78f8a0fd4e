import Verif.Lemmas.With

/-!
# C69: Unsafe, SIMD, SIMDLowAVX512 and ASM objects in `with` statements
-/

namespace Verif.Props

open Verif.With

/-- C69. Whatever a program does with objects of the four classes - with arguments or without, through nested `with` statements, exceptions, variables
that are bound again or deleted inside the statement, `__enter__` and `__exit__` called by hand -, it never uses an object that is
gone; afterwards the reference count of every object is the number of variables bound to it, and the objects given
back, each once, are those made that no variable is bound to. -/
theorem C69_balanced (p : Prog) :
    ∃ s e, exec p St.start = .ok (s, e) ∧
      (∀ o, s.rc o = s.env.owners o) ∧ s.freed.Nodup ∧
      (∀ o, o ∈ s.freed ↔ o < s.made ∧ ∀ x, s.env.get x ≠ some o) ∧
      (∀ x o, s.env.get x = some o → o < s.made) := by
  obtain ⟨s, e, h, g, _⟩ := exec_good p _ _ good_start
  have hc : ∀ o, s.rc o = s.env.owners o := fun o => by simpa using g.count o
  refine ⟨s, e, h, hc, g.once, fun o => ?_, fun x o hx => ?_⟩
  · rw [g.gone o]
    refine and_congr_right fun _ => ?_
    constructor
    · intro h0 x hx
      have := owners_of_get hx
      have := hc o
      omega
    · intro hn
      apply Nat.eq_zero_of_not_pos
      intro hpos
      obtain ⟨x, hx⟩ := get_of_owners g.keys (hc o ▸ hpos)
      exact hn x hx
  · apply Nat.lt_of_not_le
    intro hle
    have := g.fresh o hle
    have := get_pos g hx
    omega

/-- C69. A program that gives no arguments to the constructors and three positional ones to `__exit__` sees and raises what it should: `with`
binds its variable to the very object, runs the body once, and every exception of the body goes on. Missing: the other
calls, for which it is false (below). -/
theorem C69_with_partial (p : Prog) (hr : Spec.Regular p) :
    ∃ s, exec p St.start = .ok (s, (Spec.run p World.start).2) ∧
      s.env = (Spec.run p World.start).1.env ∧ s.made = (Spec.run p World.start).1.made ∧
      s.done = (Spec.run p World.start).1.done := by
  obtain ⟨s, e, h, _, r⟩ := exec_good p _ _ good_start
  have hs : Spec.run p World.start = (s.world, e) := r hr
  rw [hs]
  exact ⟨s, h, rfl, rfl, rfl⟩

/-- C69. After any program, a constructor call does what its signature says exactly if it passes no arguments. -/
theorem C69_make_exact (p : Prog) (s : St) (e : Option Raised) (hs : exec p St.start = .ok (s, e)) (t : Tool) (a : Shape)
    (mem : Bool) (x : Nat) :
    (∃ s', exec (.make t a mem x) s = .ok (s', (Spec.run (.make t a mem x) s.world).2) ∧
      s'.world = (Spec.run (.make t a mem x) s.world).1) ↔ Spec.NoArgs a := by
  obtain ⟨s0, e0, h0, g, _⟩ := exec_good p _ _ good_start
  rw [hs] at h0
  cases h0
  obtain ⟨s', e', h', _, r⟩ := exec_good (.make t a mem x) _ _ g
  constructor
  · rintro ⟨s1, h1, h2⟩
    by_contra hn
    have hrun : Spec.run (.make t a mem x) s.world = (s.world, some (.exc .typeError)) := by
      simp only [Spec.run, if_pos hn]
    rw [hrun] at h1
    cases mem with
    | false => simp [exec, construct] at h1
    | true =>
      obtain ⟨b, eb, _, _⟩ := store_good (x := x) (construct_good g)
      simp only [exec, construct, if_true, eb, bind, Except.bind, pure, Except.pure] at h1
      cases h1
  · intro ha
    have := r ha
    exact ⟨s', by rw [this]; exact h', by rw [this]⟩

/-- C69. After any program, a call of `__exit__` by hand does what its signature says exactly if it passes three positional arguments, or
passes some by name that it must refuse. -/
theorem C69_exit_exact (p : Prog) (s : St) (e : Option Raised) (hs : exec p St.start = .ok (s, e)) (y o : Nat)
    (hy : s.env.get y = some o) (a : Shape) :
    (∃ s', exec (.callExit y a) s = .ok (s', (Spec.run (.callExit y a) s.world).2) ∧
      s'.world = (Spec.run (.callExit y a) s.world).1) ↔
    ((a.kw = [] ∧ a.pos = 3) ∨ (a.kw ≠ [] ∧ ¬ Spec.ExitArgs a)) := by
  obtain ⟨s0, e0, h0, g, _⟩ := exec_good p _ _ good_start
  rw [hs] at h0
  cases h0
  have hrun : Spec.run (.callExit y a) s.world = (s.world, if Spec.ExitArgs a then none else some (.exc .typeError)) := by
    simp only [Spec.run, St.world, hy]
  rw [hrun]
  by_cases hk : a.kw = []
  · have hex : exec (.callExit y a) s = .ok (s, none) := by
      simp only [exec, hy, exit, ne_eq, hk, not_true_eq_false, if_false]
    have hx : Spec.ExitArgs a ↔ a.pos = 3 := by
      unfold Spec.ExitArgs
      rw [hk, List.nil_perm, List.drop_eq_nil_iff]
      simp only [Spec.exitParams, List.length_cons, List.length_nil]
      omega
    rw [hex]
    by_cases h3 : a.pos = 3
    · rw [if_pos (hx.mpr h3)]
      exact ⟨fun _ => .inl ⟨hk, h3⟩, fun _ => ⟨s, rfl, rfl⟩⟩
    · rw [if_neg (fun h => h3 (hx.mp h))]
      constructor
      · rintro ⟨s', h, _⟩; cases h
      · rintro (⟨_, h⟩ | ⟨h, _⟩)
        · exact absurd h h3
        · exact absurd hk h
  · have hex : exec (.callExit y a) s = .ok (s, some (.exc .typeError)) := by
      simp only [exec, hy, exit, if_pos hk]
    rw [hex]
    by_cases hx : Spec.ExitArgs a
    · rw [if_pos hx]
      constructor
      · rintro ⟨s', h, _⟩; cases h
      · rintro (⟨h, _⟩ | ⟨_, h⟩)
        · exact absurd h hk
        · exact absurd hx h
    · rw [if_neg hx]
      exact ⟨fun _ => .inr ⟨hk, hx⟩, fun _ => ⟨s, rfl, rfl⟩⟩

/-- C69, deviation: `T(...)` with any arguments, by position or by name, makes an object, although `__init__` takes none. -/
theorem C69_make_negation (t : Tool) (a : Shape) (ha : ¬ Spec.NoArgs a) (x : Nat) :
    (∃ s, exec (.make t a true x) St.start = .ok (s, none) ∧ s.env.get x = some 0) ∧
    Spec.run (.make t a true x) World.start = (World.start, some (.exc .typeError)) := by
  refine ⟨⟨_, rfl, ?_⟩, by simp only [Spec.run, if_pos ha]⟩
  show List.lookup x [(x, 0)] = some 0
  simp

/-- C69, deviation: `__exit__` called by hand takes any number of positional arguments, and refuses its own parameters by name. -/
theorem C69_exit_negation (t : Tool) (x : Nat) (a : Shape) (ha : a.kw = []) (h3 : a.pos ≠ 3) :
    (∃ s, exec (.seq (.make t .none true x) (.callExit x a)) St.start = .ok (s, none)) ∧
    (Spec.run (.seq (.make t .none true x) (.callExit x a)) World.start).2 = some (.exc .typeError) ∧
    (∃ s, exec (.seq (.make t .none true x) (.callExit x ⟨0, Spec.exitParams⟩)) St.start = .ok (s, some (.exc .typeError))) ∧
    (Spec.run (.seq (.make t .none true x) (.callExit x ⟨0, Spec.exitParams⟩)) World.start).2 = none := by
  have hl : ∀ w : Env, Env.get ((x, 0) :: w) x = some 0 := fun w => by unfold Env.get; simp
  have hm : exec (.make t .none true x) St.start = .ok (⟨1, put (fun _ => 0) 0 1, [(x, 0)], [], []⟩, none) := rfl
  have hr : Spec.run (.make t .none true x) World.start = (⟨[(x, 0)], 1, []⟩, none) := rfl
  have hx : ¬ Spec.ExitArgs a := by
    unfold Spec.ExitArgs
    rw [ha, List.nil_perm, List.drop_eq_nil_iff]
    simp only [Spec.exitParams, List.length_cons, List.length_nil]
    omega
  have hy : Spec.ExitArgs ⟨0, Spec.exitParams⟩ := ⟨List.Perm.refl _, by decide⟩
  refine ⟨⟨⟨1, put (fun _ => 0) 0 1, [(x, 0)], [], []⟩, ?_⟩, ?_, ⟨⟨1, put (fun _ => 0) 0 1, [(x, 0)], [], []⟩, ?_⟩, ?_⟩
  · rw [exec, hm]
    simp only [exec, hl, exit, ha, ne_eq, not_true_eq_false, if_false]
  · rw [Spec.run, hr]
    simp only [Spec.run, hl, if_neg hx]
  · rw [exec, hm]
    simp only [exec, hl, exit]
    rfl
  · rw [Spec.run, hr]
    simp only [Spec.run, hl, if_pos hy]

/-- A program of the theorems: `with Unsafe() as u:` in which `u` is deleted, another `with` rebinds its own object, and an exception
leaves both. -/
def C69_sample : Prog :=
  .attempt
    (.withNew .unsafeTool .none true 0
      (.seq (.use 7 0) (.seq (.assign 1 0) (.seq (.del 0)
        (.withOld 1 2 (.seq (.use 8 2) (.seq (.make .asm .none true 1) (.raise 5))))))))
    (.seq (.callExit 2 ⟨3, []⟩) (.use 9 2))

example : Spec.Regular C69_sample := by decide

example : (match exec C69_sample St.start with
    | .ok (s, e) => some (s.env, s.done, s.freed, e)
    | .error _ => none) = some ([(1, 1), (2, 0)], [(7, 0), (8, 0), (9, 0)], [], none) := by decide

example : ¬ Spec.NoArgs ⟨2, ["size"]⟩ := by decide

example : ∃ s, exec (.make .simd .none true 4) St.start = .ok (s, none) ∧ s.env.get 4 = some 0 := ⟨_, rfl, rfl⟩

end Verif.Props
