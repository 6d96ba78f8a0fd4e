import Verif.Model.Asm
import Verif.Spec.Asm

/-! Helper lemmas for the registry of functions. -/

namespace Verif.Asm

open Spec

/-- Answer of an outcome. -/
def answer : AsmOut → Option (Except Exc AsmVal)
  | .ok _ r => some (.ok r)
  | .exc _ e => some (.error e)
  | _ => none

/-- Registry, mutex and allocator for the live functions. -/
structure Inv (others live : List Nat) (s : AsmState) : Prop where
  free : s.locked = false
  reg : ∀ p, (lookup s.reg p).isSome = true ↔ p ∈ live
  blocks : s.blocks = live ++ others
  nz : ∀ p ∈ live, p ≠ 0
  nd : live.Nodup

theorem lookup_erase (r : List (Nat × Nat × Nat)) (p q : Nat) :
    lookup (erase r p) q = if q = p then none else lookup r q := by
  unfold lookup erase
  rw [List.find?_filter]
  by_cases h : q = p
  · subst h
    rw [if_pos rfl]
    rw [Option.map_eq_none_iff, List.find?_eq_none]
    intro x _
    by_cases hx : x.1 = q <;> simp [hx]
  · rw [if_neg h]
    congr 1
    congr 1
    funext e
    by_cases he : e.1 = q
    · simp [he, h]
    · simp [he]

theorem lookup_store (r : List (Nat × Nat × Nat)) (p q : Nat) (v : Nat × Nat) :
    lookup (store r p v) q = if q = p then some v else lookup r q := by
  have he := lookup_erase r p q
  unfold store lookup at *
  rw [List.find?_cons]
  by_cases h : q = p
  · simp [h]
  · rw [if_neg h] at he ⊢
    have : (p == q) = false := by simp; exact fun e => h e.symm
    simp only [this]
    exact he

/-- The outcome answers `r` and leaves a state for the live functions. -/
def Good (others : List Nat) (o : AsmOut) (res : List Nat × Except Exc AsmVal) : Prop :=
  ∃ s', o.state? = some s' ∧ Inv others res.1 s' ∧ answer o = some res.2

variable {others live : List Nat} {s : AsmState} {env : AsmEnv}

theorem good_exc (h : Inv others live s) (e : Exc) : Good others (.exc s e) (live, .error e) := ⟨s, rfl, h, rfl⟩
theorem good_ok (h : Inv others live s) (v : AsmVal) : Good others (.ok s v) (live, .ok v) := ⟨s, rfl, h, rfl⟩

theorem release_new {p : Nat} (hp : p ≠ 0) (k : AsmState → AsmOut) :
    release { s with blocks := p :: s.blocks } p k = k s := by
  unfold release
  rw [if_neg hp, if_pos (by simp)]
  simp

theorem execute_good (h : Inv others live s) (hf : AllocFresh others live env) (inPlace : Bool) :
    Good others (execute s inPlace env) (live, asmRun1 inPlace env) := by
  unfold execute asmRun1
  cases inPlace with
  | true =>
    cases env.protect <;> cases env.restore <;> first | exact good_exc h _ | exact good_ok h _
  | false =>
    cases ha : env.alloc with
    | none => exact good_exc h _
    | some p =>
      simp only [Bool.not_false, Option.isNone_some, Bool.and_false, Bool.false_eq_true, if_false]
      rw [release_new (hf p ha).1, release_new (hf p ha).1]
      cases env.protect <;> cases env.restore <;> first | exact good_exc h _ | exact good_ok h _

theorem inv_add (h : Inv others live s) {p : Nat} (hp : p ≠ 0 ∧ p ∉ others ∧ p ∉ live) (v : Nat × Nat) :
    Inv others (p :: live) { s with reg := store s.reg p v, blocks := p :: s.blocks } where
  free := h.free
  reg q := by
    show (lookup (store s.reg p v) q).isSome = true ↔ _
    rw [lookup_store]
    by_cases e : q = p
    · simp [e]
    · rw [if_neg e, h.reg, List.mem_cons]
      exact ⟨.inr, fun x => x.resolve_left e⟩
  blocks := by
    show p :: s.blocks = _
    rw [h.blocks]
    rfl
  nz q hq := by
    rcases List.mem_cons.1 hq with rfl | hq
    · exact hp.1
    · exact h.nz q hq
  nd := List.nodup_cons.2 ⟨hp.2.2, h.nd⟩

theorem makeFast_good (h : Inv others live s) (hf : AllocFresh others live env) (n : Nat) :
    Good others (makeFast s n env) (asmMake live env) := by
  unfold makeFast asmMake
  cases ha : env.alloc with
  | none => exact good_exc h _
  | some p =>
    simp only
    rw [release_new (hf p ha).1]
    cases env.protect with
    | false => exact good_exc h _
    | true => exact good_ok (inv_add h (hf p ha) (n, env.old)) _

theorem make_good (h : Inv others live s) (hf : AllocFresh others live env) (n : Nat) :
    Good others (make s [.bytes (n + 1)] env) (asmMake live env) := by
  unfold asmMake
  simp only [make]
  cases ha : env.alloc with
  | none => exact good_exc h _
  | some p =>
    simp only
    rw [release_new (hf p ha).1]
    cases env.protect with
    | false => exact good_exc h _
    | true =>
      have hi := inv_add h (hf p ha) (n + 1, env.old)
      simp only [Bool.not_true, Bool.false_eq_true, if_false, if_true, locking, h.free]
      refine good_ok ?_ _
      unfold unlock
      exact ⟨rfl, hi.reg, hi.blocks, hi.nz, hi.nd⟩

theorem inv_remove (h : Inv others live s) {p : Nat} :
    Inv others (live.erase p) { s with reg := erase s.reg p, blocks := (live.erase p) ++ others } where
  free := h.free
  reg q := by
    show (lookup (erase s.reg p) q).isSome = true ↔ _
    rw [lookup_erase, h.nd.mem_erase_iff]
    by_cases e : q = p
    · simp [e]
    · rw [if_neg e, h.reg]
      exact ⟨fun x => ⟨e, x⟩, fun x => x.2⟩
  blocks := rfl
  nz q hq := h.nz q (List.mem_of_mem_erase hq)
  nd := h.nd.erase p

theorem asPtr_address {a : Arg} {p : Nat} (h : address a = some p) : asPtr a = (p, none) := by
  unfold address at h
  cases a with
  | int v =>
    simp only at h
    unfold asPtr Unsafe.asVoidPtr
    simp only
    by_cases hv : -(2 ^ 63) ≤ v ∧ v < 2 ^ 64
    · rw [if_pos hv] at h ⊢
      rw [Option.some.inj h]
    · rw [if_neg hv] at h
      cases h
  | index v => cases h
  | other => cases h

theorem release_live (h : Inv others live s) {p : Nat} (hp : p ∈ live) (l : Bool) (k : AsmState → AsmOut) :
    release { s with locked := l } p k = k { s with locked := l, blocks := live.erase p ++ others } := by
  unfold release
  rw [if_neg (h.nz p hp), if_pos (by show p ∈ s.blocks; rw [h.blocks]; exact List.mem_append_left _ hp)]
  simp only [h.blocks]
  rw [List.erase_append_left _ hp]

theorem free_good (h : Inv others live s) {a : Arg} (hh : Harmless live (.free [a]) env) :
    Good others (free s [a] env) (asmFree live a env) := by
  obtain ⟨⟨p, hp, ha⟩, hpr⟩ := hh
  obtain ⟨v, hv⟩ := Option.isSome_iff_exists.1 ((h.reg p).2 hp)
  unfold asmFree
  simp only [free, asPtr_address ha, ha, if_pos hp, hpr, if_true, Bool.not_true, Bool.false_eq_true, if_false, locking,
    h.free, hv]
  rw [release_live h hp]
  have hi := inv_remove h (p := p)
  refine good_ok ?_ _
  exact ⟨rfl, hi.reg, hi.blocks, hi.nz, hi.nd⟩

theorem freeFast_good (h : Inv others live s) {a : Arg} (hh : Harmless live (.freeFast a) env) :
    Good others (freeFast s a env) (asmFree live a env) := by
  obtain ⟨p, hp, ha⟩ := hh
  obtain ⟨v, hv⟩ := Option.isSome_iff_exists.1 ((h.reg p).2 hp)
  unfold asmFree
  simp only [freeFast, asPtr_address ha, ha, if_pos hp, hv]
  cases env.protect with
  | false => exact good_exc h _
  | true =>
    have := release_live h hp s.locked
    simp only [Bool.not_true, Bool.false_eq_true, if_false, if_true]
    rw [show s = { s with locked := s.locked } from rfl, this]
    have hi := inv_remove h (p := p)
    exact ⟨_, rfl, ⟨h.free, hi.reg, hi.blocks, hi.nz, hi.nd⟩, rfl⟩

theorem step_good (h : Inv others live s) (hf : AllocFresh others live env) {op : AsmOp} (hh : Harmless live op env)
    (inPlace : Bool) : Good others (stepWin s op inPlace env) (asmStep live op inPlace env) := by
  cases op with
  | run args =>
    match args with
    | [.bytes 0] => exact good_exc h _
    | [.bytes (n + 1)] => exact execute_good h hf inPlace
    | [] => exact good_exc h _
    | [.other] => exact good_exc h _
    | .bytes 0 :: _ :: _ => exact good_exc h _
    | .bytes (n + 1) :: _ :: _ => exact good_exc h _
    | .other :: _ :: _ => exact good_exc h _
  | runFast n => exact execute_good h hf inPlace
  | make args =>
    match args with
    | [.bytes 0] => exact good_exc h _
    | [.bytes (n + 1)] => exact make_good h hf n
    | [] => exact good_exc h _
    | [.other] => exact good_exc h _
    | .bytes 0 :: _ :: _ => exact good_exc h _
    | .bytes (n + 1) :: _ :: _ => exact good_exc h _
    | .other :: _ :: _ => exact good_exc h _
  | makeFast n => exact makeFast_good h hf n
  | free args =>
    match args with
    | [] => exact good_exc h _
    | [a] => exact free_good h hh
    | _ :: _ :: _ => exact good_exc h _
  | freeFast a => exact freeFast_good h hh

theorem history_good (ops : List (AsmOp × Bool × AsmEnv)) : ∀ (live : List Nat) (s : AsmState), Inv others live s →
    AsmOk others live ops →
    (history s ops).map answer = (asmRun live ops).map some ∧
      ∀ o ∈ history s ops, ∃ s', o.state? = some s' ∧ s'.locked = false := by
  induction ops with
  | nil => intro live s _ _; exact ⟨rfl, by simp [history]⟩
  | cons x ops ih =>
    obtain ⟨op, i, env⟩ := x
    intro live s h ⟨hf, hh, hr⟩
    obtain ⟨s', h1, h2, h3⟩ := step_good h hf hh i
    have := ih _ s' h2 hr
    simp only [history, asmRun, h1]
    refine ⟨?_, ?_⟩
    · rw [List.map_cons, List.map_cons, h3, this.1]
    · intro o ho
      rcases List.mem_cons.1 ho with rfl | ho
      · exact ⟨s', h1, h2.free⟩
      · exact this.2 o ho

/-- Otherwise the answer is another one or the lock is kept. -/
theorem step_bad (h : Inv others live s) {op : AsmOp} (hh : ¬ Harmless live op env) (inPlace : Bool) :
    answer (stepWin s op inPlace env) ≠ some (asmStep live op inPlace env).2 ∨
      ¬ ∃ s', (stepWin s op inPlace env).state? = some s' ∧ s'.locked = false := by
  have h00 : ∀ a : Arg, (∀ p ∈ live, address a ≠ some p) → lookup s.reg (asPtr a).1 = none := by
    intro a hu
    have hno : (asPtr a).1 ∉ live := by
      intro hp
      cases ha : address a with
      | some q =>
        rw [asPtr_address ha] at hp
        exact hu q hp ha
      | none =>
        have : (asPtr a).1 = 0 := by
          unfold address at ha
          cases a with
          | int v =>
            simp only at ha
            unfold asPtr Unsafe.asVoidPtr
            simp only
            by_cases hv : -(2 ^ 63) ≤ v ∧ v < 2 ^ 64
            · rw [if_pos hv] at ha; cases ha
            · rw [if_neg hv]
          | index v => rfl
          | other => rfl
        exact h.nz _ hp this
    cases hl : lookup s.reg (asPtr a).1 with
    | none => rfl
    | some v => exact absurd ((h.reg _).1 (by rw [hl]; rfl)) hno
  match op, hh with
  | .free [a], hh =>
    right
    rintro ⟨s', h1, h2⟩
    simp only [stepWin, free, locking, h.free, Bool.false_eq_true, if_false] at h1
    by_cases hp : ∃ p ∈ live, address a = some p
    · have hpr : env.protect = false := by
        cases he : env.protect with
        | false => rfl
        | true => exact absurd ⟨hp, he⟩ hh
      obtain ⟨p, hp, ha⟩ := hp
      obtain ⟨v, hv⟩ := Option.isSome_iff_exists.1 ((h.reg p).2 hp)
      simp only [asPtr_address ha, hv, hpr, Bool.not_false, if_true] at h1
      cases h1
      cases h2
    · rw [h00 a fun p h1 h2 => hp ⟨p, h1, h2⟩] at h1
      cases h1
      cases h2
  | .freeFast a, hh =>
    left
    have hu : ∀ p ∈ live, address a ≠ some p := fun p h1 h2 => hh ⟨p, h1, h2⟩
    have hs : (asmStep live (.freeFast a) inPlace env).2 = .error .valueError := by
      simp only [asmStep, asmFree]
      cases ha : address a with
      | none => rfl
      | some p => simp only [if_neg fun hp => hu p hp ha]
    rw [hs]
    simp only [stepWin, freeFast, h00 a hu]
    cases env.protect with
    | false => simp [answer]
    | true =>
      simp only [Bool.not_true, Bool.false_eq_true, if_false]
      unfold release
      split
      · cases (asPtr a).2 <;> simp [done, answer]
      · split
        · cases (asPtr a).2 <;> simp [done, answer]
        · simp [answer]
  | .free [], hh | .free (_ :: _ :: _), hh => exact absurd trivial hh
  | .run _, hh | .runFast _, hh | .make _, hh | .makeFast _, hh => exact absurd trivial hh

/-- Histories that answer as specified are harmless. -/
theorem history_exact (ops : List (AsmOp × Bool × AsmEnv)) : ∀ (live : List Nat) (s : AsmState), Inv others live s →
    AsmFresh others live ops →
    (((history s ops).map answer = (asmRun live ops).map some ∧
      ∀ o ∈ history s ops, ∃ s', o.state? = some s' ∧ s'.locked = false) ↔ AsmOk others live ops) := by
  induction ops with
  | nil => intro live s _ _; exact ⟨fun _ => trivial, fun _ => ⟨rfl, by simp [history]⟩⟩
  | cons x ops ih =>
    obtain ⟨op, i, env⟩ := x
    intro live s h ⟨hf, hr⟩
    refine ⟨?_, history_good _ live s h⟩
    rintro ⟨h1, h2⟩
    by_cases hh : Harmless live op env
    · obtain ⟨s', g1, g2, g3⟩ := step_good h hf hh i
      simp only [history, asmRun, g1, List.map_cons, List.cons.injEq] at h1
      exact ⟨hf, hh, (ih _ s' g2 hr).1 ⟨h1.2, fun o ho => h2 o (by simp only [history, g1]; exact List.mem_cons_of_mem _ ho)⟩⟩
    · exfalso
      rcases step_bad h hh i with hb | hb
      · simp only [history, asmRun, List.map_cons, List.cons.injEq] at h1
        exact hb h1.1
      · exact hb (h2 _ (by simp only [history]; exact List.mem_cons_self))

end Verif.Asm
