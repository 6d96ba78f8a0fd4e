import Verif.Lemmas.Calls

/-!
# C58: calling a C function runs it once and delivers its result
-/

namespace Verif.Props

open Verif.Calls
open Verif.Spec (asWord)

/-- `callVoid` and `callLongLong` with an address: the memory is as the function left it, and the answer is `None` or the
function's `long long`, for every function. -/
theorem C58_call_void_long_long (code : Code) (m m' : Mem) (r : Regs) (f : Arg) (a : Nat) (ha : asWord f = some a)
    (hc : code a m = some (r, m')) :
    callVoid code m [f] = .ok m' .none ∧ callLongLong code m [f] = .ok m' (.int (canon (Spec.signed 64 r.rax))) := by
  simp only [callVoid, callLongLong, Verif.Unsafe.word_asVoidPtr ha, enter, hc, wrap_signed 64 r.rax (by decide)]
  exact ⟨trivial, trivial⟩

/-- `callInt` answers with the function's `int`, if the interpreter is 3.11 or earlier or the value is between 1 and 2^30 - 1.
What is missing: `C58_call_int_negation`. -/
theorem C58_call_int_partial (cfg : Cfg) (code : Code) (m m' : Mem) (r : Regs) (f : Arg) (a : Nat) (ha : asWord f = some a)
    (hc : code a m = some (r, m')) (hv : cfg.py = .le311 ∨ (0 < Spec.signed 32 r.rax ∧ Spec.signed 32 r.rax < 2 ^ 30)) :
    callInt cfg.py code m [f] = .ok m' (.int (canon (Spec.signed 32 r.rax))) := by
  have hb := (box_eq_canon_iff cfg .i32 (signed_fits r.rax)).2 (.inr hv)
  simp only [callInt, Verif.Unsafe.word_asVoidPtr ha, enter, hc, wrap_signed 32 r.rax (by decide)]
  rw [← hb]
  rfl

/-- From 3.12 on, every other value comes back as an object that is not the `int` Python would make. -/
theorem C58_call_int_negation (cfg : Cfg) (code : Code) (m m' : Mem) (r : Regs) (f : Arg) (a : Nat) (ha : asWord f = some a)
    (hc : code a m = some (r, m')) (hv : cfg.py ≠ .le311) (hr : Spec.signed 32 r.rax ≤ 0 ∨ 2 ^ 30 ≤ Spec.signed 32 r.rax) :
    ∃ p, callInt cfg.py code m [f] = .ok m' (.int p) ∧ p ≠ canon (Spec.signed 32 r.rax) := by
  refine ⟨box .i32 cfg.py (Spec.signed 32 r.rax), ?_, ?_⟩
  · simp only [callInt, Verif.Unsafe.word_asVoidPtr ha, enter, hc, wrap_signed 32 r.rax (by decide)]
    rfl
  · intro h
    have hb := (box_eq_canon_iff cfg .i32 (signed_fits r.rax)).1 h
    rcases hb with h | h | h
    · exact absurd h (by decide)
    · exact hv h
    · omega

/-- C58, `callInt`, exactly: the int the function returned comes back as the object Python makes for it precisely up to 3.11,
or if it is between 1 and 2^30 - 1. -/
theorem C58_call_int_exact (cfg : Cfg) (code : Code) (m m' : Mem) (r : Regs) (f : Arg) (a : Nat) (ha : asWord f = some a)
    (hc : code a m = some (r, m')) :
    callInt cfg.py code m [f] = .ok m' (.int (canon (Spec.signed 32 r.rax))) ↔
      cfg.py = .le311 ∨ (0 < Spec.signed 32 r.rax ∧ Spec.signed 32 r.rax < 2 ^ 30) := by
  refine ⟨fun h => ?_, C58_call_int_partial cfg code m m' r f a ha hc⟩
  by_cases hp : cfg.py = .le311
  · exact .inl hp
  · refine .inr (Classical.byContradiction fun hn => ?_)
    obtain ⟨p, e, hne⟩ := C58_call_int_negation cfg code m m' r f a ha hc hp (by omega)
    rw [e] at h
    injection h with _ h
    injection h with h
    exact hne h

/-- `call(func, result, size)` for a return value of up to 8 bytes: the function runs, and its value is at `result`; nothing
else changes. Size 0 is `callVoid`. What is missing: `C58_call_pair_negation`. -/
theorem C58_call_partial (code : Code) (m m' : Mem) (r : Regs) (f result size : Arg) (a b n : Nat) (ha : asWord f = some a)
    (hb : asWord result = some b) (hn : asWord size = some n) (hc : code a m = some (r, m')) :
    (n = 0 → call code m [f, result, size] = .ok m' .none) ∧
    (0 < n → n ≤ 8 → m'.covers b n = true →
      ∃ m'', call code m [f, result, size] = .ok m'' .none ∧ Spec.Stored m' m'' b n (Spec.returned r n)) := by
  have e : call code m [f, result, size] = finish code m a b n := by
    simp only [call, Verif.Unsafe.word_asVoidPtr ha, Verif.Unsafe.word_asVoidPtr hb, Verif.Unsafe.word_asSizeT hn]
  rw [e]
  constructor
  · rintro rfl
    simp only [finish, enter, hc, if_true]
  · intro h0 h8 hcov
    refine ⟨m'.write b (bytesOf n r.rax), ?_, ?_⟩
    · simp only [finish, enter, hc]
      rw [if_neg (by omega), if_neg (by omega), if_pos hcov]
    · have hret : Spec.returned r n = r.rax % 256 ^ n := by
        unfold Spec.returned
        obtain ⟨k, hk⟩ : ∃ k, 2 ^ 64 * r.rdx = 256 ^ n * k := by
          refine ⟨256 ^ (8 - n) * r.rdx, ?_⟩
          rw [← Nat.mul_assoc, ← Nat.pow_add]
          have : n + (8 - n) = 8 := by omega
          rw [this]
        rw [hk, Nat.add_mul_mod_self_left]
      rw [hret]
      exact write_value m' b n r.rax

/-- `call` with a size above 8 copies from the address the function returned (for sizes above 16 this is what the documentation
describes). -/
theorem C58_call_pointer (code : Code) (m m' : Mem) (r : Regs) (f result size : Arg) (a b n : Nat) (ha : asWord f = some a)
    (hb : asWord result = some b) (hn : asWord size = some n) (hc : code a m = some (r, m')) (h8 : 8 < n)
    (h1 : m'.covers r.rax n = true) (h2 : m'.covers b n = true) (h3 : r.rax + n ≤ b ∨ b + n ≤ r.rax) :
    ∃ m'', call code m [f, result, size] = .ok m'' .none ∧ (∀ i, i < n → m''.byte (b + i) = m'.byte (r.rax + i)) ∧
      (∀ x, x < b ∨ b + n ≤ x → m''.byte x = m'.byte x) ∧ m''.blocks = m'.blocks := by
  have e : call code m [f, result, size] = finish code m a b n := by
    simp only [call, Verif.Unsafe.word_asVoidPtr ha, Verif.Unsafe.word_asVoidPtr hb, Verif.Unsafe.word_asSizeT hn]
  have hl : (m'.read r.rax n).length = n := by simp [Mem.read]
  refine ⟨m'.write b (m'.read r.rax n), ?_, ?_, ?_, rfl⟩
  · rw [e]
    simp only [finish, enter, hc]
    rw [if_neg (by omega), if_pos (by omega), h1, h2]
    simp only [Bool.and_self, if_true]
    rw [if_pos h3]
  · intro i hi
    rw [Verif.Unsafe.write_byte_in (by omega)]
    simp [Mem.read]
  · intro x hx
    exact Verif.Unsafe.write_byte_out (by rw [hl]; exact hx)

/-- A return value of 9 to 16 bytes is in rax and rdx; `call` takes rax for an address and reads there. -/
theorem C58_call_pair_negation (code : Code) (m m' : Mem) (r : Regs) (f result size : Arg) (a b n : Nat)
    (ha : asWord f = some a) (hb : asWord result = some b) (hn : asWord size = some n) (hc : code a m = some (r, m'))
    (h8 : 8 < n) (h1 : m'.covers r.rax n = false) : call code m [f, result, size] = .ub .outOfBounds := by
  simp only [call, Verif.Unsafe.word_asVoidPtr ha, Verif.Unsafe.word_asVoidPtr hb, Verif.Unsafe.word_asSizeT hn, finish, enter, hc]
  rw [if_neg (by omega), if_pos (by omega), h1]
  simp

/-- A function at 4096 that returns -2, and one at 8192 that returns the pair (1, 2). -/
def someCode : Code := fun a m =>
  if a = 4096 then some (⟨2 ^ 64 - 2, 0⟩, m) else if a = 8192 then some (⟨1, 2⟩, m) else none

example : ∃ m : Mem, asWord (.int 4096) = some 4096 ∧ (∃ r, someCode 4096 m = some (r, m) ∧ Spec.signed 32 r.rax = -2 ∧
    Spec.returned r 2 = 65534) ∧ m.covers 100 2 = true :=
  ⟨⟨[(100, 8)], fun _ => 0⟩, by decide, ⟨⟨2 ^ 64 - 2, 0⟩, rfl, by decide, by decide⟩, by decide⟩

example : ∃ m : Mem, ∃ r, someCode 8192 m = some (r, m) ∧ m.covers r.rax 16 = false ∧ m.covers 100 16 = true :=
  ⟨⟨[(100, 16)], fun _ => 0⟩, ⟨1, 2⟩, rfl, by decide, by decide⟩

/-- Wrong numbers of arguments and arguments that are no addresses raise before anything is called. -/
theorem C58_call_refused (py : PyVer) (code : Code) (m : Mem) :
    (∀ args : List Arg, args.length ≠ 1 → callVoid code m args = .exc m .typeError ∧
      callInt py code m args = .exc m .typeError ∧ callLongLong code m args = .exc m .typeError) ∧
    (∀ args : List Arg, args.length ≠ 3 → call code m args = .exc m .typeError) ∧
    (∀ f : Arg, (∀ v, f ≠ .int v) → callVoid code m [f] = .exc m .typeError ∧
      callInt py code m [f] = .exc m .typeError ∧ callLongLong code m [f] = .exc m .typeError ∧
      ∀ b c, ∃ e, call code m [f, b, c] = .exc m e) := by
  refine ⟨fun args h => ?_, fun args h => ?_, fun f h => ?_⟩
  · match args with
    | [] | _ :: _ :: _ => exact ⟨rfl, rfl, rfl⟩
    | [_] => exact absurd rfl h
  · match args with
    | [] | [_] | [_, _] | _ :: _ :: _ :: _ :: _ => rfl
    | [_, _, _] => exact absurd rfl h
  · have hf : Verif.Unsafe.asVoidPtr f = .error .typeError := by
      cases f with
      | int v => exact absurd rfl (h v)
      | index v => rfl
      | other => rfl
    refine ⟨by simp only [callVoid, hf], by simp only [callInt, hf], by simp only [callLongLong, hf], fun b c => ?_⟩
    simp only [call, hf]
    split <;> exact ⟨_, rfl⟩

end Verif.Props
