import Verif.Model.With
import Verif.Spec.With
import Mathlib.Logic.Basic
import Mathlib.Tactic.ByContra

/-!
# Lemmas about `with` statements
-/

namespace Verif.With

/-- What a program can see of the process. -/
def St.world (s : St) : World := ⟨s.env, s.made, s.done⟩

/-- The process when `held` are the references of running `with` statements. -/
structure Good (s : St) (held : List Nat) : Prop where
  keys : (s.env.map Prod.fst).Nodup
  count : ∀ o, s.rc o = s.env.owners o + held.count o
  fresh : ∀ o, s.made ≤ o → s.rc o = 0
  once : s.freed.Nodup
  gone : ∀ o, o ∈ s.freed ↔ o < s.made ∧ s.rc o = 0

theorem drop_of_get_none {env : Env} {x : Nat} (h : env.get x = none) : env.drop x = env := by
  induction env with
  | nil => rfl
  | cons b env ih =>
    obtain ⟨y, p⟩ := b
    unfold Env.get at h ih
    rw [List.lookup_cons] at h
    by_cases hxy : x = y
    · subst hxy; simp at h
    · have : (x == y) = false := by simpa using hxy
      rw [this] at h
      have hb : ((y, p).1 != x) = true := by simpa using fun e => hxy e.symm
      unfold Env.drop at ih ⊢
      rw [List.filter_cons_of_pos (p := fun b : Nat × Nat => b.1 != x) hb, ih h]

theorem get_none_of {env : Env} {x : Nat} (h : x ∉ env.map Prod.fst) : env.get x = none := by
  induction env with
  | nil => rfl
  | cons b env ih =>
    obtain ⟨y, p⟩ := b
    simp only [List.map_cons, List.mem_cons, not_or] at h
    unfold Env.get at ih ⊢
    rw [List.lookup_cons]
    have : (x == y) = false := by simpa using h.1
    rw [this]
    exact ih h.2

theorem owners_drop {env : Env} {x : Nat} (hk : (env.map Prod.fst).Nodup) (o : Nat) :
    (env.drop x).owners o + (if env.get x = some o then 1 else 0) = env.owners o := by
  induction env with
  | nil => rfl
  | cons b env ih =>
    obtain ⟨y, p⟩ := b
    rw [List.map_cons, List.nodup_cons] at hk
    by_cases hxy : y = x
    · subst hxy
      have hg := get_none_of hk.1
      have hd := drop_of_get_none hg
      have e1 : Env.drop ((y, p) :: env) y = env := by
        unfold Env.drop at hd ⊢
        rw [List.filter_cons_of_neg (by simp), hd]
      have e2 : Env.get ((y, p) :: env) y = some p := by
        unfold Env.get; simp
      rw [e1, e2]
      unfold Env.owners
      rw [List.map_cons, List.count_cons]
      by_cases h : p = o <;> simp [h]
    · have e1 : Env.drop ((y, p) :: env) x = (y, p) :: Env.drop env x := by
        unfold Env.drop
        rw [List.filter_cons_of_pos (by simpa using hxy)]
      have e2 : Env.get ((y, p) :: env) x = Env.get env x := by
        unfold Env.get
        rw [List.lookup_cons]
        have : (x == y) = false := by simpa using fun e => hxy e.symm
        rw [this]
      have := ih hk.2
      rw [e1, e2]
      unfold Env.owners at this ⊢
      rw [List.map_cons, List.map_cons, List.count_cons, List.count_cons]
      omega

theorem keys_drop {env : Env} {x : Nat} (hk : (env.map Prod.fst).Nodup) :
    ((env.drop x).map Prod.fst).Nodup :=
  hk.sublist ((List.filter_sublist).map _)

theorem keys_bind {env : Env} {x o : Nat} (hk : (env.map Prod.fst).Nodup) :
    ((env.bind x o).map Prod.fst).Nodup := by
  unfold Env.bind
  rw [List.map_cons, List.nodup_cons]
  refine ⟨?_, keys_drop hk⟩
  intro h
  obtain ⟨b, hb, e⟩ := List.mem_map.mp h
  have := (List.mem_filter.mp hb).2
  simp [e] at this

theorem owners_bind (env : Env) (x o k : Nat) :
    (env.bind x o).owners k = (env.drop x).owners k + (if o = k then 1 else 0) := by
  unfold Env.bind Env.owners
  rw [List.map_cons, List.count_cons]
  by_cases h : o = k <;> simp [h]

theorem owners_of_get {env : Env} {x o : Nat} (h : env.get x = some o) : 0 < env.owners o := by
  unfold Env.get at h
  unfold Env.owners
  induction env with
  | nil => cases h
  | cons b env ih =>
    obtain ⟨y, p⟩ := b
    rw [List.lookup_cons] at h
    rw [List.map_cons, List.count_cons]
    cases hxy : x == y with
    | true =>
      rw [hxy] at h
      cases h
      simp
    | false =>
      rw [hxy] at h
      have := ih h
      omega

theorem incref_good {s : St} {held : List Nat} {o : Nat} (g : Good s held) (h : 0 < s.rc o) :
    ∃ s', incref o s = .ok s' ∧ Good s' (o :: held) ∧ s'.world = s.world := by
  refine ⟨{ s with rc := put s.rc o (s.rc o + 1) }, ?_, ?_, rfl⟩
  · unfold incref; rw [if_neg (by omega)]
  · have hm : o < s.made := by
      apply Nat.lt_of_not_le; intro hle
      have := g.fresh o hle; omega
    refine ⟨g.keys, ?_, ?_, g.once, ?_⟩
    · intro k
      have := g.count k
      rw [List.count_cons]
      show put s.rc o (s.rc o + 1) k = _
      unfold put
      by_cases hk : k = o
      · subst hk; simp; omega
      · have : (o == k) = false := by simpa using fun e => hk e.symm
        rw [if_neg hk, this]; simpa using g.count k
    · intro k hk
      show put s.rc o (s.rc o + 1) k = 0
      unfold put
      rw [if_neg (by have : s.made ≤ k := hk; omega)]
      exact g.fresh k hk
    · intro k
      show k ∈ s.freed ↔ k < s.made ∧ put s.rc o (s.rc o + 1) k = 0
      rw [g.gone k]
      unfold put
      by_cases hk : k = o
      · subst hk; simp; omega
      · rw [if_neg hk]

theorem decref_good {s : St} {held : List Nat} {o : Nat} (g : Good s (o :: held)) :
    ∃ s', decref o s = .ok s' ∧ Good s' held ∧ s'.world = s.world := by
  have hc := g.count o
  rw [List.count_cons] at hc
  simp only [beq_self_eq_true, if_true] at hc
  have hm : o < s.made := by
    apply Nat.lt_of_not_le; intro hle
    have := g.fresh o hle; omega
  have hcount : ∀ k, put s.rc o (s.rc o - 1) k = s.env.owners k + held.count k := by
    intro k
    have := g.count k
    rw [List.count_cons] at this
    unfold put
    by_cases hk : k = o
    · subst hk; simp; omega
    · have e : (o == k) = false := by simpa using fun e => hk e.symm
      rw [if_neg hk]; rw [e] at this; simpa using this
  have hfresh : ∀ k, s.made ≤ k → put s.rc o (s.rc o - 1) k = 0 := by
    intro k hk
    unfold put
    rw [if_neg (by omega)]
    exact g.fresh k hk
  have hput : put s.rc o (s.rc o - 1) o = s.rc o - 1 := if_pos rfl
  have hnot : o ∉ s.freed := by
    intro hf
    have := ((g.gone o).mp hf).2; omega
  unfold decref
  rw [if_neg (by omega)]
  dsimp only
  by_cases hz : s.rc o - 1 = 0
  · rw [if_pos (hput.trans hz)]
    refine ⟨_, rfl, ⟨g.keys, hcount, hfresh, ?_, ?_⟩, rfl⟩
    · show (s.freed ++ [o]).Nodup
      rw [List.nodup_append]
      refine ⟨g.once, by simp, ?_⟩
      intro a ha b hb
      simp only [List.mem_singleton] at hb
      subst hb
      intro e; subst e; exact hnot ha
    · intro k
      show k ∈ s.freed ++ [o] ↔ k < s.made ∧ put s.rc o (s.rc o - 1) k = 0
      rw [List.mem_append, g.gone k, List.mem_singleton]
      unfold put
      by_cases hk : k = o
      · subst hk; simp; omega
      · simp [hk]
  · rw [if_neg (fun h => hz (hput.symm.trans h))]
    refine ⟨_, rfl, ⟨g.keys, hcount, hfresh, g.once, ?_⟩, rfl⟩
    intro k
    show k ∈ s.freed ↔ k < s.made ∧ put s.rc o (s.rc o - 1) k = 0
    rw [g.gone k]
    unfold put
    by_cases hk : k = o
    · subst hk; simp; omega
    · simp [hk]

theorem store_good {s : St} {held : List Nat} {x o : Nat} (g : Good s (o :: held)) :
    ∃ s', store x o s = .ok s' ∧ Good s' held ∧ s'.world = { s.world with env := s.env.bind x o } := by
  have hd := fun k => owners_drop (x := x) g.keys k
  unfold store
  cases hx : s.env.get x with
  | none =>
    refine ⟨_, rfl, ⟨keys_bind g.keys, ?_, g.fresh, g.once, g.gone⟩, rfl⟩
    intro k
    have h1 := g.count k
    have h2 := hd k
    rw [hx] at h2
    rw [List.count_cons] at h1
    show s.rc k = (s.env.bind x o).owners k + held.count k
    rw [owners_bind]
    by_cases hk : o = k <;> simp [hk] at h1 h2 ⊢ <;> omega
  | some p =>
    have g' : Good { s with env := s.env.bind x o } (p :: held) := by
      refine ⟨keys_bind g.keys, ?_, g.fresh, g.once, g.gone⟩
      intro k
      have h1 := g.count k
      have h2 := hd k
      rw [hx] at h2
      rw [List.count_cons] at h1 ⊢
      show s.rc k = (s.env.bind x o).owners k + _
      rw [owners_bind]
      by_cases hk : o = k <;> by_cases hp : p = k <;> simp [hk, hp] at h1 h2 ⊢ <;> omega
    obtain ⟨s', e, hg, hw⟩ := decref_good g'
    exact ⟨s', e, hg, hw⟩

theorem drop_good {s : St} {held : List Nat} {x o : Nat} (g : Good s held) (hx : s.env.get x = some o) :
    Good { s with env := s.env.drop x } (o :: held) := by
  refine ⟨keys_drop g.keys, ?_, g.fresh, g.once, g.gone⟩
  intro k
  have h1 := g.count k
  have h2 := owners_drop (x := x) g.keys k
  rw [hx] at h2
  rw [List.count_cons]
  show s.rc k = (s.env.drop x).owners k + _
  by_cases hk : o = k <;> simp [hk] at h1 h2 ⊢ <;> omega

theorem construct_good {s : St} {held : List Nat} (g : Good s held) :
    Good { s with made := s.made + 1, rc := put s.rc s.made 1 } (s.made :: held) := by
  have h0 := g.fresh s.made (Nat.le_refl _)
  refine ⟨g.keys, ?_, ?_, g.once, ?_⟩
  · intro k
    have h1 := g.count k
    rw [List.count_cons]
    show put s.rc s.made 1 k = _
    unfold put
    by_cases hk : k = s.made
    · subst hk; simp; omega
    · have e : (s.made == k) = false := by simpa using fun e => hk e.symm
      rw [if_neg hk, e]; simpa using h1
  · intro k hk
    have hk : s.made + 1 ≤ k := hk
    show put s.rc s.made 1 k = 0
    unfold put
    rw [if_neg (by omega)]
    exact g.fresh k (by omega)
  · intro k
    show k ∈ s.freed ↔ k < s.made + 1 ∧ put s.rc s.made 1 k = 0
    rw [g.gone k]
    unfold put
    by_cases hk : k = s.made
    · subst hk; simp
    · rw [if_neg hk]
      constructor
      · intro h; exact ⟨by omega, h.2⟩
      · intro h; exact ⟨by omega, h.2⟩

theorem held_pos {s : St} {held : List Nat} {o : Nat} (g : Good s (o :: held)) : 0 < s.rc o := by
  have := g.count o
  rw [List.count_cons] at this
  simp at this
  omega

theorem get_pos {s : St} {held : List Nat} {x o : Nat} (g : Good s held) (h : s.env.get x = some o) : 0 < s.rc o := by
  have := g.count o
  have := owners_of_get h
  omega

theorem withStmt_good {s : St} {held : List Nat} {o x : Nat} {body : St → Except UB (St × Option Raised)}
    (g : Good s (o :: held))
    (hb : ∀ s held, Good s held → ∃ s' e, body s = .ok (s', e) ∧ Good s' held) :
    ∃ s1 s' e, s1.world = { s.world with env := s.env.bind x o } ∧ Good s1 (o :: held) ∧
      (∃ s2, body s1 = .ok (s2, e) ∧ s'.world = s2.world) ∧ withStmt body o x s = .ok (s', e) ∧ Good s' held := by
  obtain ⟨a, ea, ga, wa⟩ := incref_good g (held_pos g)
  obtain ⟨b, eb, gb, wb⟩ := incref_good ga (held_pos ga)
  obtain ⟨c, ec, gc, wc⟩ := decref_good gb
  obtain ⟨d, ed, gd, wd⟩ := incref_good gc (held_pos gc)
  obtain ⟨f, ef, gf, wf⟩ := decref_good gd
  obtain ⟨h, eh, gh, wh⟩ := store_good (x := x) gf
  obtain ⟨i, e, ei, gi⟩ := hb h _ gh
  obtain ⟨j, ej, gj, wj⟩ := decref_good gi
  have hw : f.world = s.world := by rw [wf, wd, wc, wb, wa]
  have henv : f.env = s.env := congrArg World.env hw
  refine ⟨h, j, e, by rw [wh, hw, henv], gh, ⟨i, ei, wj⟩, ?_, gj⟩
  have een : enter Shape.none o c = .ok (d, .ok o) := by
    unfold enter
    rw [if_neg (by simp [Shape.none]), ed]
  unfold withStmt
  simp only [bind, Except.bind, pure, Except.pure, ea, eb, ec, een, ef, eh, ei, ej, exit, ne_eq, not_true_eq_false, if_false]

theorem exec_good (p : Prog) : ∀ (s : St) (held : List Nat), Good s held →
    ∃ s' e, exec p s = .ok (s', e) ∧ Good s' held ∧ (Spec.Regular p → Spec.run p s.world = (s'.world, e)) := by
  induction p with
  | skip => intro s held g; exact ⟨s, none, rfl, g, fun _ => rfl⟩
  | use n x =>
    intro s held g
    cases hx : s.env.get x with
    | none =>
      refine ⟨s, some .nameError, by simp only [exec, hx], g, fun _ => ?_⟩
      simp only [Spec.run, St.world, hx]
    | some o =>
      have := get_pos g hx
      refine ⟨{ s with done := s.done ++ [(n, o)] }, none, ?_, ⟨g.keys, g.count, g.fresh, g.once, g.gone⟩, fun _ => ?_⟩
      · simp only [exec, hx]; rw [if_neg (by omega)]
      · simp only [Spec.run, St.world, hx]
  | raise n => intro s held g; exact ⟨s, some (.own n), rfl, g, fun _ => rfl⟩
  | seq p q ihp ihq =>
    intro s held g
    obtain ⟨s1, e1, h1, g1, r1⟩ := ihp s held g
    cases e1 with
    | none =>
      obtain ⟨s2, e2, h2, g2, r2⟩ := ihq s1 held g1
      refine ⟨s2, e2, by simp only [exec, h1, h2], g2, fun hr => ?_⟩
      simp only [Spec.run, r1 hr.1, r2 hr.2]
    | some e =>
      refine ⟨s1, some e, by simp only [exec, h1], g1, fun hr => ?_⟩
      simp only [Spec.run, r1 hr.1]
  | attempt p q ihp ihq =>
    intro s held g
    obtain ⟨s1, e1, h1, g1, r1⟩ := ihp s held g
    cases e1 with
    | none =>
      refine ⟨s1, none, by simp only [exec, h1], g1, fun hr => ?_⟩
      simp only [Spec.run, r1 hr.1]
    | some e =>
      obtain ⟨s2, e2, h2, g2, r2⟩ := ihq s1 held g1
      refine ⟨s2, e2, by simp only [exec, h1, h2], g2, fun hr => ?_⟩
      simp only [Spec.run, r1 hr.1, r2 hr.2]
  | assign x y =>
    intro s held g
    cases hy : s.env.get y with
    | none =>
      refine ⟨s, some .nameError, by simp only [exec, hy], g, fun _ => ?_⟩
      simp only [Spec.run, St.world, hy]
    | some o =>
      obtain ⟨a, ea, ga, wa⟩ := incref_good g (get_pos g hy)
      obtain ⟨b, eb, gb, wb⟩ := store_good (x := x) ga
      refine ⟨b, none, by simp only [exec, hy, ea, eb, bind, Except.bind, pure, Except.pure], gb, fun _ => ?_⟩
      rw [wb, wa, show a.env = s.env from congrArg World.env wa]
      simp only [Spec.run, St.world, hy]
  | del x =>
    intro s held g
    cases hx : s.env.get x with
    | none =>
      refine ⟨s, some .nameError, by simp only [exec, hx], g, fun _ => ?_⟩
      simp only [Spec.run, St.world, hx]
    | some o =>
      obtain ⟨b, eb, gb, wb⟩ := decref_good (drop_good g hx)
      refine ⟨b, none, by simp only [exec, hx, eb, bind, Except.bind, pure, Except.pure], gb, fun _ => ?_⟩
      rw [wb]
      simp only [Spec.run, St.world, hx]
  | make t a mem x =>
    intro s held g
    cases mem with
    | false =>
      refine ⟨s, some (.exc .memoryError), rfl, g, fun hr => ?_⟩
      have hr : Spec.NoArgs a := hr
      simp only [Spec.run, if_neg (not_not.mpr hr)]
      rfl
    | true =>
      obtain ⟨b, eb, gb, wb⟩ := store_good (x := x) (construct_good g)
      refine ⟨b, none, ?_, gb, fun hr => ?_⟩
      · simp only [exec, construct, if_true, eb, bind, Except.bind, pure, Except.pure]
      · have hr : Spec.NoArgs a := hr
        simp only [Spec.run, if_neg (not_not.mpr hr), if_true, wb]
        rfl
  | callEnter x y a =>
    intro s held g
    cases hy : s.env.get y with
    | none =>
      refine ⟨s, some .nameError, by simp only [exec, hy], g, fun _ => ?_⟩
      simp only [Spec.run, St.world, hy]
    | some o =>
      by_cases ha : Spec.NoArgs a
      · obtain ⟨c, ec, gc, wc⟩ := incref_good g (get_pos g hy)
        obtain ⟨b, eb, gb, wb⟩ := store_good (x := x) gc
        have een : enter a o s = .ok (c, .ok o) := by
          unfold enter
          rw [if_neg (by rintro (h | h); exacts [h ha.1, h ha.2]), ec]
        refine ⟨b, none, by simp only [exec, hy, een, eb, bind, Except.bind, pure, Except.pure], gb, fun _ => ?_⟩
        rw [wb, wc, show c.env = s.env from congrArg World.env wc]
        simp only [Spec.run, St.world, hy, if_neg (not_not.mpr ha)]
      · have een : enter a o s = .ok (s, .error (.exc .typeError)) := by
          unfold enter
          rw [if_pos]
          by_contra hc
          simp only [not_or, ne_eq, not_not] at hc
          exact ha hc
        refine ⟨s, some (.exc .typeError), by simp only [exec, hy, een, bind, Except.bind, pure, Except.pure], g, fun _ => ?_⟩
        simp only [Spec.run, St.world, hy, if_pos ha]
  | callExit y a =>
    intro s held g
    cases hy : s.env.get y with
    | none =>
      refine ⟨s, some .nameError, by simp only [exec, hy], g, fun _ => ?_⟩
      simp only [Spec.run, St.world, hy]
    | some o =>
      by_cases hk : a.kw = []
      · have ee : exit a = .ok false := by unfold exit; rw [if_neg (not_not.mpr hk)]
        refine ⟨s, none, by simp only [exec, hy, ee], g, fun hr => ?_⟩
        have hr : (if a.kw = [] then a.pos = 3 else ¬ Spec.ExitArgs a) := hr
        rw [if_pos hk] at hr
        have hx : Spec.ExitArgs a := by
          unfold Spec.ExitArgs
          rw [hk, hr]
          exact ⟨List.Perm.refl _, by omega⟩
        simp only [Spec.run, St.world, hy, if_pos hx]
      · have ee : exit a = .error (.exc .typeError) := by unfold exit; rw [if_pos hk]
        refine ⟨s, some (.exc .typeError), by simp only [exec, hy, ee], g, fun hr => ?_⟩
        have hr : (if a.kw = [] then a.pos = 3 else ¬ Spec.ExitArgs a) := hr
        rw [if_neg hk] at hr
        simp only [Spec.run, St.world, hy, if_neg hr]
  | withNew t a mem x p ih =>
    intro s held g
    cases mem with
    | false =>
      refine ⟨s, some (.exc .memoryError), rfl, g, fun hr => ?_⟩
      simp only [Spec.run, if_neg (not_not.mpr hr.1)]
      rfl
    | true =>
      obtain ⟨s1, s', e, w1, g1, ⟨s2, h2, w2⟩, h3, g3⟩ := withStmt_good (x := x) (construct_good g)
        (fun s held g => let ⟨s', e, h, g', _⟩ := ih s held g; ⟨s', e, h, g'⟩)
      refine ⟨s', e, ?_, g3, fun hr => ?_⟩
      · simp only [exec, construct, if_true]
        exact h3
      · obtain ⟨s2', e', h2', _, r⟩ := ih s1 _ g1
        rw [h2] at h2'
        cases h2'
        simp only [Spec.run, if_neg (not_not.mpr hr.1), if_true]
        rw [w2, ← r hr.2, w1]
        rfl
  | withOld y x p ih =>
    intro s held g
    cases hy : s.env.get y with
    | none =>
      refine ⟨s, some .nameError, by simp only [exec, hy], g, fun _ => ?_⟩
      simp only [Spec.run, St.world, hy]
    | some o =>
      obtain ⟨c, ec, gc, wc⟩ := incref_good g (get_pos g hy)
      obtain ⟨s1, s', e, w1, g1, ⟨s2, h2, w2⟩, h3, g3⟩ := withStmt_good (x := x) gc
        (fun s held g => let ⟨s', e, h, g', _⟩ := ih s held g; ⟨s', e, h, g'⟩)
      refine ⟨s', e, ?_, g3, fun hr => ?_⟩
      · simp only [exec, hy, ec, bind, Except.bind]
        exact h3
      · obtain ⟨s2', e', h2', _, r⟩ := ih s1 _ g1
        rw [h2] at h2'
        cases h2'
        have : Spec.Regular p := hr
        rw [w2, ← r this, w1, wc, show c.env = s.env from congrArg World.env wc]
        simp only [Spec.run, St.world, hy]

theorem good_start : Good St.start [] := by
  refine ⟨List.nodup_nil, fun _ => rfl, fun _ _ => rfl, List.nodup_nil, fun o => ?_⟩
  simp [St.start]

theorem get_of_owners {env : Env} {o : Nat} (hk : (env.map Prod.fst).Nodup) (h : 0 < env.owners o) :
    ∃ x, env.get x = some o := by
  induction env with
  | nil => exact absurd h (Nat.lt_irrefl 0)
  | cons b env ih =>
    obtain ⟨y, p⟩ := b
    rw [List.map_cons, List.nodup_cons] at hk
    by_cases hp : p = o
    · exact ⟨y, by unfold Env.get; simp [hp]⟩
    · have h' : 0 < Env.owners env o := by
        unfold Env.owners at h ⊢
        rw [List.map_cons, List.count_cons] at h
        simpa [hp] using h
      obtain ⟨x, hx⟩ := ih hk.2 h'
      refine ⟨x, ?_⟩
      have hxy : x ≠ y := by
        intro e
        subst e
        rw [get_none_of hk.1] at hx
        cases hx
      have e : (x == y) = false := by simpa using hxy
      unfold Env.get at hx ⊢
      rw [List.lookup_cons, e]
      exact hx

end Verif.With
