import Verif.Lemmas.LowAVX512Range

/-!
# C51: the AVX-512 bindings
-/

namespace Verif.Props

open LowAVX512 Spec.Low

/-- C51 for methods without pointer parameters whose intrinsic needs no compile-time constant, and integer arguments
that are converted exactly: whenever the documentation gives the call an effect, the call has that effect and returns
None. Missing: pointer parameters, constants, some integers (negations below). -/
theorem C51_partial (py : PyVer) (f32 : List Byte → List Byte) (I : Intrinsics) (s : Stub) (hs : s ∈ stubs)
    (hr : s.raises = false) (hn : needsConst s = false) (hp : CTy.ptr ∉ s.params) (m m' : Mem) (args : List LArg)
    (h : Effect false f32 I s m args m') (he : ExactAll py s args) :
    call py f32 I s.method m args = some (.ok m' .none) := by
  rw [call_stub py f32 I m args hs, exec_effect hr hn (effect_direct h hp) he]

/-- `mm512_set1_epi64(64, -5)`, with any intrinsic that returns 64 bytes and leaves memory alone. -/
example (f32 : List Byte → List Byte) (v : List Byte) :
    (⟨id! "mm512_set1_epi64", [.ptr, .int], false, id! "_mm512_set1_epi64", [.llong], some .m512i⟩ : Stub) ∈ stubs ∧
    Effect false f32 (fun _ _ m => some (v, m))
      ⟨id! "mm512_set1_epi64", [.ptr, .int], false, id! "_mm512_set1_epi64", [.llong], some .m512i⟩ mem0
      [.obj (.int (64 : Nat)), .obj (.int (-5))] (stored mem0 64 v) := by
  refine ⟨?_, .result rfl (.cons (v := SimdSet.laneBytes 8 (-5)) (.integer (Or.inl rfl) ⟨by decide, by decide⟩) .nil) rfl at0⟩
  have : (stubs.any fun s => decide
      (s = ⟨id! "mm512_set1_epi64", [.ptr, .int], false, id! "_mm512_set1_epi64", [.llong], some .m512i⟩)) = true := by
    decide +kernel
  obtain ⟨s, hs, e⟩ := List.any_eq_true.1 this
  rw [← of_decide_eq_true e]
  exact hs

/-- C51 for all supported methods, pointer parameters included, if a pointer is passed as the address of a cell that
holds it (not documented). -/
theorem C51_indirect_partial (py : PyVer) (f32 : List Byte → List Byte) (I : Intrinsics) (s : Stub) (hs : s ∈ stubs)
    (hr : s.raises = false) (hn : needsConst s = false) (m m' : Mem) (args : List LArg)
    (h : Effect true f32 I s m args m') (he : ExactAll py s args) :
    call py f32 I s.method m args = some (.ok m' .none) := by
  rw [call_stub py f32 I m args hs, exec_effect hr hn h he]

/-- `mm512_loadu_pd(64, 64)`: the cell at 64 holds the null pointer. -/
example (f32 : List Byte → List Byte) (v : List Byte) :
    Effect true f32 (fun _ _ m => some (v, m))
      ⟨id! "mm512_loadu_pd", [.ptr, .ptr], false, id! "_mm512_loadu_pd", [.ptr], some .m512d⟩ mem0
      [.obj (.int (64 : Nat)), .obj (.int (64 : Nat))] (stored mem0 64 v) :=
  .result rfl (.cons (.cell rfl at0) .nil) rfl at0

/-- C51 is violated by every supported method with a pointer parameter, on 3.12+ by every one with a `char` or `short`
parameter, and on ≤ 3.11 by every one with an `int` parameter: for some arguments the documented effect is defined,
but the intrinsic is called with other values (here: outside its domain). -/
theorem C51_values_negation (py : PyVer) (f32 : List Byte → List Byte) (s : Stub) (hs : s ∈ stubs)
    (hr : s.raises = false) (hn : needsConst s = false) (t : CTy) (ht : t ∈ s.params)
    (hb : t = .ptr ∨ (py = .le311 ∧ t = .int) ∨ (py ≠ .le311 ∧ (t = .char ∨ t = .short))) :
    ∃ I m args m' u, Effect false f32 I s m args m' ∧ call py f32 I s.method m args = some (.ub u) := by
  obtain ⟨I, args, m', h1, h2⟩ := exec_bad f32 hs hr hn ht hb
  exact ⟨I, mem0, args, m', _, h1, by rw [call_stub py f32 I mem0 args hs, h2]⟩

/-- There are such methods: 84 with a pointer, 4 with `char` or `short`, 2 with `int`. -/
example :
    (stubs.filter fun s => !s.raises && !needsConst s && s.params.any fun t => decide (t = .ptr)).length = 84 ∧
    (stubs.filter fun s => !s.raises && !needsConst s && s.params.any fun t => decide (t = .char ∨ t = .short)).length = 4 ∧
    (stubs.filter fun s => !s.raises && !needsConst s && s.params.any fun t => decide (t = .int)).length = 2 := by
  decide +kernel

/-- A pointer parameter, in general: the intrinsic is called with the eight bytes found at the address. -/
theorem C51_load_negation (py : PyVer) (f32 : List Byte → List Byte) (I : Intrinsics) (m m' : Mem) (p q : Nat)
    (v : List Byte) (hp : At m .ptr p) (hq : At m' .m512d q) (hI : I (id! "_mm512_loadu_pd") [bytesAt m p 8] m = some (v, m')) :
    call py f32 I (id! "mm512_loadu_pd") m [.obj (.int q), .obj (.int p)] = some (.ok (stored m' q v) .none) := by
  have hs : (⟨id! "mm512_loadu_pd", [.ptr, .ptr], false, id! "_mm512_loadu_pd", [.ptr], some .m512d⟩ : Stub) ∈ stubs := by
    have : (stubs.any fun s => decide
        (s = ⟨id! "mm512_loadu_pd", [.ptr, .ptr], false, id! "_mm512_loadu_pd", [.ptr], some .m512d⟩)) = true := by
      decide +kernel
    obtain ⟨s, hs, e⟩ := List.any_eq_true.1 this
    rw [← of_decide_eq_true e]
    exact hs
  refine C51_indirect_partial py f32 I _ hs rfl rfl m _ _ (.result rfl (.cons (.cell rfl hp) .nil) hI hq) ?_
  intro x hx
  simp only [List.drop_succ_cons, List.drop_zero, List.zip_cons_cons, List.zip_nil_right, List.mem_singleton] at hx
  subst hx
  intro v _
  exact ⟨(by intro h; cases h), (by intro h; cases h), (by intro h; cases h)⟩

/-- C51 is violated by every method with a `float` or `double` parameter: the stub annotates it as `int`, but an `int`
object (or any object that is no `float`) is read as if it were a float, whatever the other arguments. -/
theorem C51_float_negation (py : PyVer) (f32 : List Byte → List Byte) (I : Intrinsics) (s : Stub) (hs : s ∈ stubs)
    (hr : s.raises = false) (hn : needsConst s = false) (i : Nat) (t : CTy) (ht : s.params[i]? = some t)
    (hf : floating t = true) (m : Mem) (args : List LArg) (hl : args.length = s.hints.length) (a : Arg)
    (ha : args[i + (s.hints.length - s.params.length)]? = some (.obj a)) :
    s.hints[i + (s.hints.length - s.params.length)]? = some .int ∧
      ∃ u, call py f32 I s.method m args = some (.ub u) := by
  have hh := hints_length hs
  rw [hh, Nat.add_sub_cancel_left] at ha ⊢
  constructor
  · obtain ⟨_, _, _, _, _, h⟩ := row rows_ok hs
    have hi : hintFor t = .int := by cases t <;> first | rfl | cases hf
    rw [h]
    unfold hintsFor
    cases s.ret <;> simp [first, ht, hi]
  · obtain ⟨u, hu⟩ := declare_float py f32 m s.params args (first s.ret) i t ht hf ha
    refine ⟨u, ?_⟩
    rw [call_stub py f32 I m args hs, implFor_call hr hn, ← hh, ← hl]
    simp only [exec, hu, ne_eq, not_true, if_false]

example :
    (stubs.any fun s => !s.raises && !needsConst s && decide (s.params = [.double] ∧ s.hints = [.ptr, .int])) = true := by
  decide +kernel

/-- C51. A method marked `RaisesNotImplementedError` raises it for all arguments, and nothing happens. -/
theorem C51_raises (py : PyVer) (f32 : List Byte → List Byte) (I : Intrinsics) (s : Stub) (hs : s ∈ stubs)
    (hr : s.raises = true) (m : Mem) (args : List LArg) :
    call py f32 I s.method m args = some (.exc m .notImplementedError) := by
  rw [call_stub py f32 I m args hs]
  unfold implFor
  rw [hr]
  rfl

example : (stubs.filter fun s => s.raises).length = 466 := by decide +kernel

/-- C51. Every other method called with a wrong number of arguments raises TypeError, and nothing happens. -/
theorem C51_wrong_count (py : PyVer) (f32 : List Byte → List Byte) (I : Intrinsics) (s : Stub) (hs : s ∈ stubs)
    (hr : s.raises = false) (m : Mem) (args : List LArg) (hl : args.length ≠ s.hints.length) :
    call py f32 I s.method m args = some (.exc m .typeError) := by
  rw [call_stub py f32 I m args hs]
  cases hn : needsConst s with
  | false =>
    rw [implFor_call hr hn]
    rw [hints_length hs] at hl
    simp only [exec, ne_eq, hl, not_false_iff, if_true]
  | true =>
    unfold implFor
    rw [hr, hn]
    simp only [cond_false, cond_true, exec, ne_eq, hl, not_false_iff, if_true]

/-- C51 is violated by the methods whose intrinsic needs a constant although the stub does not mark them: called with
the right number of arguments they raise NotImplementedError (GCC and Clang). -/
theorem C51_constant_negation (py : PyVer) (f32 : List Byte → List Byte) (I : Intrinsics) (s : Stub) (hs : s ∈ stubs)
    (hr : s.raises = false) (hn : needsConst s = true) (m : Mem) (args : List LArg) (hl : args.length = s.hints.length) :
    call py f32 I s.method m args = some (.exc m .notImplementedError) := by
  rw [call_stub py f32 I m args hs]
  unfold implFor
  rw [hr, hn]
  simp only [cond_false, cond_true, exec, ne_eq, hl, not_true, if_false]

example : (stubs.filter fun s => !s.raises && needsConst s).length = 25 := by decide +kernel

/-- C51. The class has exactly the documented methods. -/
theorem C51_names (py : PyVer) (f32 : List Byte → List Byte) (I : Intrinsics) (name : Ident) (m : Mem)
    (args : List LArg) : (call py f32 I name m args).isSome = true ↔ ∃ s ∈ stubs, s.method = name := by
  constructor
  · intro h
    cases hm : methods.lookup name with
    | none => rw [call, hm] at h; cases h
    | some w => exact row_method rows_ok (mem_of_lookup hm)
  · rintro ⟨s, hs, rfl⟩
    rw [call_stub py f32 I m args hs]
    rfl

/-- The example in the class comment calls a method that does not exist. -/
theorem C51_example_negation (py : PyVer) (f32 : List Byte → List Byte) (I : Intrinsics) (m : Mem) (args : List LArg) :
    call py f32 I (id! "_mm512_set_epi64") m args = none := by
  have : methods.lookup (id! "_mm512_set_epi64") = none := by decide +kernel
  rw [call, this]

/-- C51. If the intrinsic only computes (leaves memory alone and returns a value of the type of the prototype), then a
call changes at most the bytes of the result at `__result`, whatever the arguments and whether or not an exception is
pending. -/
theorem C51_only_result (py : PyVer) (f32 : List Byte → List Byte) (I : Intrinsics) (s : Stub) (hs : s ∈ stubs) (t : CTy)
    (ht : s.ret = some t) (m m' : Mem) (args : List LArg)
    (hI : ∀ vals v m1, I s.proto vals m = some (v, m1) → m1 = m ∧ v.length = t.size) (o : Out Mem UVal)
    (ho : call py f32 I s.method m args = some o) (hm : o.state? = some m') :
    m' = m ∨ ∃ z : Int, args[0]? = some (.obj (.int z)) ∧ m'.blocks = m.blocks ∧
      ∀ x : Nat, (x : Int) < z % 2 ^ 64 ∨ z % 2 ^ 64 + t.size ≤ x → m'.byte x = m.byte x := by
  rw [call_stub py f32 I m args hs, Option.some.injEq] at ho
  subst ho
  cases hr : s.raises with
  | true =>
    unfold implFor at hm
    rw [hr] at hm
    cases hm
    exact Or.inl rfl
  | false =>
    cases hn : needsConst s with
    | true =>
      unfold implFor at hm
      rw [hr, hn] at hm
      simp only [cond_false, cond_true, exec] at hm
      split at hm <;> cases hm <;> exact Or.inl rfl
    | false =>
      rw [implFor_call hr hn, ht] at hm
      simp only [exec] at hm
      split at hm
      · cases hm; exact Or.inl rfl
      · split at hm
        · cases hm
        · split at hm
          · cases hm
          · rename_i v m1 hv
            obtain ⟨rfl, hl⟩ := hI _ _ _ hv
            split at hm
            · cases hm
            · rename_i a ha
              split at hm
              · cases hm
              · rename_i p hp
                have e : m' = m1.write p v := by
                  unfold done at hm
                  split at hm <;> cases hm <;> rfl
                refine Or.inr ?_
                obtain ⟨hw, _, _⟩ := address_int hp
                obtain ⟨z, rfl, hz⟩ := voidPtr_int hw
                refine ⟨z, ha, by rw [e]; rfl, fun x hx => ?_⟩
                rw [e, Unsafe.write_byte_out]
                rw [hl]
                rw [hz] at hx
                omega

/-- C51 is violated: an argument outside the range of its type does not stop the call. `mm512_set1_epi64(p, v)` with `v`
outside 64 bits calls the intrinsic with -1, stores its result, and returns None with OverflowError pending (the
interpreter answers with SystemError). -/
theorem C51_overflow_negation (py : PyVer) (f32 : List Byte → List Byte) (I : Intrinsics) (m m' : Mem) (p : Nat) (z : Int)
    (hz : ¬ FitsS 64 z) (v : List Byte) (hp : At m' .m512i p)
    (hI : I (id! "_mm512_set1_epi64") [List.replicate 8 255] m = some (v, m')) :
    call py f32 I (id! "mm512_set1_epi64") m [.obj (.int p), .obj (.int z)] =
      some (.pending (stored m' p v) .none .overflowError) := by
  have hs : (⟨id! "mm512_set1_epi64", [.ptr, .int], false, id! "_mm512_set1_epi64", [.llong], some .m512i⟩ : Stub) ∈
      stubs := by
    have : (stubs.any fun s => decide
        (s = ⟨id! "mm512_set1_epi64", [.ptr, .int], false, id! "_mm512_set1_epi64", [.llong], some .m512i⟩)) = true := by
      decide +kernel
    obtain ⟨s, hs, e⟩ := List.any_eq_true.1 this
    rw [← of_decide_eq_true e]
    exact hs
  have hb : asLong (toArg (.obj (.int z))) = (-1, some .overflowError) := if_neg hz
  rw [call_stub py f32 I m _ hs, implFor_call rfl rfl]
  exact congrArg some (exec_overflow (address_at hp) hb hI)

example : ¬ FitsS 64 (2 ^ 63) := by decide

/-- C51. A call that returns without an exception was given 64-bit integers in range: signed for `long long`, unsigned
for `unsigned long long` and `unsigned int`. -/
theorem C51_reports (py : PyVer) (f32 : List Byte → List Byte) (I : Intrinsics) (s : Stub) (hs : s ∈ stubs)
    (m m' : Mem) (args : List LArg) (v : UVal) (h : call py f32 I s.method m args = some (.ok m' v)) (i : Nat) (t : CTy)
    (ht : s.params[i]? = some t) (z : Int)
    (ha : args[i + (s.hints.length - s.params.length)]? = some (.obj (.int z))) :
    (t = .llong → -(2 ^ 63) ≤ z ∧ z < 2 ^ 63) ∧ (t = .ullong ∨ t = .uint → 0 ≤ z ∧ z < 2 ^ 64) := by
  rw [hints_length hs, Nat.add_sub_cancel_left] at ha
  rw [call_stub py f32 I m args hs, Option.some.injEq] at h
  cases hr : s.raises with
  | true =>
    unfold implFor at h
    rw [hr] at h
    cases h
  | false =>
    cases hn : needsConst s with
    | true =>
      unfold implFor at h
      rw [hr, hn] at h
      simp only [cond_false, cond_true, exec] at h
      split at h <;> cases h
    | false =>
      rw [implFor_call hr hn] at h
      obtain ⟨env, hd⟩ := exec_silent h
      obtain ⟨w, hc⟩ := declare_silent py f32 m s.params args (first s.ret) env hd i t _ ht ha
      exact convert_silent hc

/-- C51 is violated: a number of 33 to 64 bits given for an `unsigned int` is cut to 32 bits without an exception. -/
theorem C51_wraps_negation (py : PyVer) (f32 : List Byte → List Byte) (I : Intrinsics) (s : Stub) (hs : s ∈ stubs)
    (m : Mem) (args : List LArg) (i : Nat) (ht : s.params[i]? = some .uint) (z : Int) (hz : 0 ≤ z ∧ z < 2 ^ 64)
    (ha : args[i + (s.hints.length - s.params.length)]? = some (.obj (.int z))) :
    call py f32 I s.method m args =
      call py f32 I s.method m (args.set (i + (s.hints.length - s.params.length)) (.obj (.int (z % 2 ^ 32)))) := by
  rw [hints_length hs, Nat.add_sub_cancel_left] at ha ⊢
  rw [call_stub py f32 I m _ hs, call_stub py f32 I m _ hs]
  cases hr : s.raises with
  | true =>
    unfold implFor
    rw [hr]
    rfl
  | false =>
    cases hn : needsConst s with
    | true =>
      unfold implFor
      rw [hr, hn]
      simp only [cond_false, cond_true, exec, List.length_set]
    | false =>
      rw [implFor_call hr hn]
      refine congrArg some (exec_set (declare_set py f32 m ha _ _ fun i' t hi ht' => ?_) ?_)
      · obtain rfl : i' = i := by omega
        rw [ht] at ht'
        cases ht'
        exact convert_uint py f32 m _ hz
      · cases s.ret with
        | none => exact .inl rfl
        | some _ => right; simp [first]

example : (stubs.any fun s => !s.raises && !needsConst s && decide (s.params = [.m512i, .uint])) = true := by
  decide +kernel

end Verif.Props
