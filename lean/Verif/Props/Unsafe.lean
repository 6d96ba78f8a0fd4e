import Verif.Lemmas.Unsafe
import Verif.Lemmas.UnsafeObj

/-!
# Properties of Unsafe: raw memory, allocation, objects and addresses

C41, C42, C43.
-/

namespace Verif.Props

open Unsafe

/-! ## C41: set, get, memcpy, memset -/

/-- C41. `set(p, data)` into a live block succeeds, a following `get(p, len(data))` returns `data`, no block is created
or freed, and no byte outside the range changes. For every memory, address and byte string (a bytes object has at most
`PY_SSIZE_T_MAX - 33` bytes). -/
theorem C41_set_get (zf : Bool) (m : Mem) (p : Nat) (data : List Byte) (ans ans' : Alloc) (h0 : 0 < p) (h1 : p < 2 ^ 64)
    (hl : data.length ≤ 2 ^ 63 - 34) (hc : m.covers p data.length = true) :
    ∃ m', step zf m (.set (.int p) (some data)) ans = .ok m' .none ∧
      step zf m' (.get (.int p) (.int data.length)) ans' = .ok m' (.bytes data) ∧
      m'.blocks = m.blocks ∧ ∀ x, x < p ∨ p + data.length ≤ x → m'.byte x = m.byte x :=
  set_get_args zf m ans ans' h0 (word_nat h1) (word_nat (by omega)) hl hc

example : ∃ m : Mem, m.covers 17 2 = true ∧ m.covers 16 5 = false :=
  ⟨⟨[(16, 4)], fun _ => 0⟩, by decide, by decide⟩

/-- C41. `memcpy(src, dst, n)` between disjoint live ranges copies the bytes and changes nothing else. -/
theorem C41_memcpy (zf : Bool) (m : Mem) (src dst n : Nat) (ans : Alloc) (h1 : src < 2 ^ 64) (h2 : dst < 2 ^ 64)
    (h3 : n < 2 ^ 64) (hs : m.covers src n = true) (hd : m.covers dst n = true)
    (hdis : src + n ≤ dst ∨ dst + n ≤ src) :
    ∃ m', step zf m (.memcpy (.int src) (.int dst) (.int n)) ans = .ok m' .none ∧ m'.blocks = m.blocks ∧
      (∀ i, i < n → m'.byte (dst + i) = m.byte (src + i)) ∧
      ∀ x, x < dst ∨ dst + n ≤ x → m'.byte x = m.byte x :=
  memcpy_args zf m ans (word_nat h1) (word_nat h2) (word_nat h3) hs hd hdis

example : ∃ m : Mem, m.covers 16 2 = true ∧ m.covers 18 2 = true ∧ m.byte 16 ≠ m.byte 18 :=
  ⟨⟨[(16, 4)], fun x => if x = 16 then 7 else 0⟩, by decide, by decide, by decide⟩

/-- C41. `memset(p, v, n)` on a live range sets every byte to `v` modulo 256 (`v` a C int) and changes nothing else. -/
theorem C41_memset (zf : Bool) (m : Mem) (p n : Nat) (v : Int) (ans : Alloc) (h1 : p < 2 ^ 64) (h2 : n < 2 ^ 64)
    (hv : -(2 ^ 31) ≤ v ∧ v < 2 ^ 31) (hc : m.covers p n = true) :
    ∃ m', step zf m (.memset (.int p) (.int v) (.int n)) ans = .ok m' .none ∧ m'.blocks = m.blocks ∧
      (∀ i, i < n → ((m'.byte (p + i)).val : Int) = v % 256) ∧
      ∀ x, x < p ∨ p + n ≤ x → m'.byte x = m.byte x :=
  memset_args zf m ans (word_nat h1) (word_nat h2) hv hc

example : ∃ m : Mem, m.covers 16 4 = true ∧ (m.byte 16).val ≠ 255 := ⟨⟨[(16, 4)], fun _ => 0⟩, by decide, by decide⟩

/-- C41. A call of `get`, `set`, `memcpy` or `memset` that raises leaves the memory as it was. -/
theorem C41_raise_unchanged (zf : Bool) (m m' : Mem) (op : UOp) (ans : Alloc) (e : Exc)
    (hop : (∃ p n, op = .get p n) ∨ (∃ p d, op = .set p d) ∨ (∃ a b n, op = .memcpy a b n) ∨ ∃ p v n, op = .memset p v n)
    (h : step zf m op ans = .exc m' e) : m' = m := by
  rcases hop with ⟨p, n, rfl⟩ | ⟨p, d, rfl⟩ | ⟨a, b, n, rfl⟩ | ⟨p, v, n, rfl⟩
  · simp only [step, Unsafe.get] at h
    repeat' split at h
    all_goals first | (cases h; rfl) | cases h
  · simp only [step, Unsafe.set] at h
    repeat' split at h
    all_goals first | (cases h; rfl) | cases h
  · simp only [step, Unsafe.memcpy] at h
    repeat' split at h
    all_goals first | (cases h; rfl) | cases h
  · simp only [step, Unsafe.memset] at h
    repeat' split at h
    all_goals first | (cases h; rfl) | cases h

example : ∃ m, step true ⟨[(16, 4)], fun _ => 0⟩ (.set (.int 16) none) none = .exc m .typeError := ⟨_, rfl⟩

/-- C41. `memcpy` between overlapping live ranges is undefined: the restriction to disjoint ranges is needed. -/
theorem C41_memcpy_overlap_undefined (zf : Bool) (m : Mem) (src dst n : Nat) (ans : Alloc) (h1 : src < 2 ^ 64)
    (h2 : dst < 2 ^ 64) (h3 : n < 2 ^ 64) (hs : m.covers src n = true) (hd : m.covers dst n = true)
    (ho : src < dst + n ∧ dst < src + n) :
    step zf m (.memcpy (.int src) (.int dst) (.int n)) ans = .ub .overlap :=
  memcpy_overlap_args zf m ans (word_nat h1) (word_nat h2) (word_nat h3) hs hd ho

example : ∃ m : Mem, m.covers 16 3 = true ∧ m.covers 17 3 = true ∧ 16 < 17 + 3 ∧ 17 < 16 + 3 :=
  ⟨⟨[(16, 4)], fun _ => 0⟩, by decide, by decide, by decide, by decide⟩

/-! ## C42: allocation -/

/-- C42, for histories in which client and allocator keep the rules of C, all sizes and addresses are below 2^64 and
`realloc` is not asked for size 0: every call does what the block store specifies. `malloc`, `calloc`, `realloc` and
`aligned_malloc` return the address of a live block of the requested size or raise MemoryError and change nothing,
`calloc`'s block is zero, `realloc` keeps the common prefix, other blocks keep their contents, `free` removes exactly
one block. Missing: size 0 in `realloc` and sizes from 2^64 on, where the code deviates (below). -/
theorem C42_history_partial (zf : Bool) (byte : Nat → Byte) (ops : List (UOp × Alloc)) (rs : List Spec.URes)
    (h : Spec.Behaves [] ops rs) :
    (run zf ⟨[], byte⟩ ops).map seen = rs.map fun r => some (r.1.map fun b => (b.1, b.2.length), r.2) :=
  run_behaves zf h ⟨[], byte⟩ ⟨rfl, (by intro b hb; cases hb), .nil, (by intro b hb; cases hb)⟩

/-- The contents seen by `get` after `malloc(2)`, `set`, `realloc` to 3 bytes at another address. -/
example (junk : Nat → Byte) : ∃ rs, Spec.Behaves []
    [(.malloc (.int 2), some (16, junk)), (.set (.int 16) (some [5, 6]), none),
      (.realloc (.int 16) (.int 3), some (32, junk)), (.get (.int 32) (.int 2), none), (.free (.int 32), none)] rs ∧
    rs.map (·.2) = [.ok (.addr 16), .ok .none, .ok (.addr 32), .ok (.bytes [5, 6]), .ok .none] := by
  refine ⟨_, .cons (r := .ok (.addr 16)) ?_ rfl (.cons (r := .ok .none) trivial rfl (.cons (r := .ok (.addr 32)) ?_ rfl
    (.cons (r := .ok (.bytes [5, 6])) trivial rfl (.cons (r := .ok .none) trivial rfl (.nil _))))), rfl⟩
  · intro n hn p junk' e
    cases hn
    cases e
    exact ⟨by decide, by decide, fun b hb => by cases hb⟩
  · intro p n hp hn q junk' e
    cases hp
    cases hn
    cases e
    refine ⟨by decide, by decide, fun b hb => ?_⟩
    have : Spec.without [(16, [5, 6])] (16 : Int).toNat = [] := rfl
    change b ∈ Spec.without [(16, [5, 6])] (16 : Int).toNat at hb
    rw [this] at hb
    cases hb

/-- C42 is violated. With glibc, `realloc(p, 0)` frees the block and then raises MemoryError as if it had failed; the
caller, who must think that `p` is still allocated, frees it: undefined behaviour. -/
theorem C42_realloc_zero_reports_failure (m : Mem) (p k : Nat) (ans ans' : Alloc) (h0 : 0 < p) (h1 : p < 2 ^ 64)
    (hp : m.sizeAt p = some k) :
    ∃ m', step true m (.realloc (.int p) (.int 0)) ans = .exc m' .memoryError ∧ m'.sizeAt p = none ∧
      step true m' (.free (.int p)) ans' = .ub .invalidFree :=
  ⟨m.drop p, realloc_zero_args m ans h0 (word_nat h1) hp, sizeAt_drop m p,
    free_none_args true _ ans' h0 (word_nat h1) (sizeAt_drop m p)⟩

example : (⟨[(16, 4)], fun _ => 0⟩ : Mem).sizeAt 16 = some 4 := rfl

/-- C42 is violated. A size from 2^64 on is taken modulo 2^64: `calloc(v, 1)`, `aligned_malloc(v, a)` and
`realloc(0, v)` return the address of a block that is smaller than requested. -/
theorem C42_huge_size_wraps (zf : Bool) (m : Mem) (v : Int) (al : Nat) (p : Nat) (junk : Nat → Byte) (hv : 2 ^ 64 ≤ v)
    (op : UOp) (hop : op = .calloc (.int v) (.int 1) ∨ op = .alignedMalloc (.int v) (.int al) ∨
      op = .realloc (.int 0) (.int v)) :
    ∃ m' k, step zf m op (some (p, junk)) = .ok m' (.addr p) ∧ m'.sizeAt p = some k ∧ (k : Int) < v := by
  refine ⟨(m.add p (v % 2 ^ 64).toNat).write p (if op = .calloc (.int v) (.int 1) then
    List.replicate (v % 2 ^ 64).toNat 0 else junkAt p (v % 2 ^ 64).toNat junk), (v % 2 ^ 64).toNat, ?_, ?_, by omega⟩
  · rcases hop with rfl | rfl | rfl
    · have w1 : argK (.int 1) = .ok 1 := rfl
      have wv : argK (.int v) = .ok (v % 2 ^ 64).toNat := rfl
      simp only [step, Unsafe.calloc, w1, wv, Nat.mul_one, if_true]
    · have wv : argK (.int v) = .ok (v % 2 ^ 64).toNat := rfl
      have wa : argK (.int al) = .ok ((al : Int) % 2 ^ 64).toNat := rfl
      simp only [step, Unsafe.alignedMalloc, wv, wa]
      rw [if_neg (by intro h; cases h)]
    · have w1 : argK (.int 0) = .ok 0 := rfl
      have wv : argK (.int v) = .ok (v % 2 ^ 64).toNat := rfl
      simp only [step, Unsafe.realloc, w1, wv, if_true]
      rw [if_neg (by intro h; cases h)]
  · simp [Mem.sizeAt, Mem.write, Mem.add]

example : ∃ v : Int, 2 ^ 64 ≤ v := ⟨2 ^ 64, by decide⟩

/-- C42. A freed address is no longer allocated: freeing it again before it is allocated anew is undefined, nothing
detects it. -/
theorem C42_free_once (zf : Bool) (m : Mem) (p k : Nat) (ans ans' : Alloc) (h0 : 0 < p) (h1 : p < 2 ^ 64)
    (hp : m.sizeAt p = some k) :
    ∃ m', step zf m (.free (.int p)) ans = .ok m' .none ∧ m'.sizeAt p = none ∧
      (∀ q, q ≠ p → m'.sizeAt q = m.sizeAt q) ∧ step zf m' (.free (.int p)) ans' = .ub .invalidFree :=
  ⟨m.drop p, free_some_args zf m ans h0 (word_nat h1) hp, sizeAt_drop m p, fun _ hq => sizeAt_drop_ne m hq,
    free_none_args zf _ ans' h0 (word_nat h1) (sizeAt_drop m p)⟩

example : (⟨[(16, 4), (32, 8)], fun _ => 0⟩ : Mem).sizeAt 32 = some 8 := rfl

/-! ## C43: objects and addresses -/

/-- C43, identity: `as_object(get_address(x))` is `x`, for every live object. -/
theorem C43_identity (h : Heap) (o : Nat) (h0 : 0 < o) (h1 : o < 2 ^ 64) (hl : h.live o = true) :
    UnsafeObj.step h (.getAddress o) = .ok h (.int o) ∧ UnsafeObj.step h (.asObject (.int o)) = .ok h (.obj o) :=
  ⟨rfl, UnsafeObj.step_asObject (UnsafeObj.target_nat h0 h1) (UnsafeObj.live_iff.1 hl)⟩

example : (⟨fun _ => false, fun _ => 1⟩ : Heap).live 16 = true := rfl

/-- C43 is violated. `as_object` returns a borrowed reference as if it were a new one: each
`as_object(get_address(x))` whose result is dropped again takes a reference away from the names that remain. After as
many rounds as there are names, the object is freed although every name is still there, and the next use of one is a
use after free. -/
theorem C43_loses_references (h : Heap) (own : Obj → Nat) (o : Nat) (h0 : 0 < o) (h1 : o < 2 ^ 64)
    (hm : h.imm o = false) (hown : 0 < own o) (hrc : h.rc o = own o) :
    ∃ es h', Spec.Names own es own ∧ UnsafeObj.play h es = some h' ∧ h'.live o = false ∧
      (UnsafeObj.step h' (.drop o)).state? = none := by
  have ht := UnsafeObj.target_nat h0 h1
  obtain ⟨h', e, i, r⟩ := UnsafeObj.rounds_play ht (own o) h hm (by omega)
  refine ⟨_, h', UnsafeObj.rounds_names ht hown (own o), e, ?_, ?_⟩
  · have hz : h'.rc o = 0 := by omega
    simp [Heap.live, i, hm, hz]
  · have hz : h'.rc o = 0 := by omega
    simp [UnsafeObj.step, Heap.decref, i, hm, hz, withHeap, Out.state?]

example : ∃ (h : Heap) (own : Obj → Nat), h.imm 16 = false ∧ 0 < own 16 ∧ h.rc 16 = own 16 :=
  ⟨⟨fun _ => false, fun _ => 3⟩, fun _ => 3, rfl, by decide, rfl⟩

/-- C43 with the client's help: if, for each object that is not immortal, the references the client adds by hand with
`incref` cover the names made by `as_object` at every moment, then in every history no freed object is touched and
every object the client has a name for is alive at the end. Missing: the balance without `incref` (violated, see
`C43_loses_references`). -/
theorem C43_careful_partial (h : Heap) (own own' : Obj → Nat) (es : List REvent)
    (hc : ∀ o, h.imm o = false → own o ≤ h.rc o) (hn : Spec.Names own es own') (hk : Spec.Careful h.imm es) :
    ∃ h', UnsafeObj.play h es = some h' ∧ ∀ o, 0 < own' o → h'.live o = true := by
  obtain ⟨h', e, i, r⟩ := UnsafeObj.careful_play hn h (fun _ => 0) (fun o ho => by have := hc o ho; omega)
    (fun k o ho => by have := hk k o ho; omega)
  refine ⟨h', e, fun o ho => ?_⟩
  unfold Heap.live
  rw [i]
  by_cases hi : h.imm o = true
  · simp [hi]
  · have hi : h.imm o = false := by simpa using hi
    have h1 := r o hi
    have h2 := hk es.length o hi
    rw [List.take_length] at h2
    have : 0 < h'.rc o := by omega
    simp [hi, this]

example : ∃ es : List REvent, Spec.Careful (fun _ => false) es ∧
    Spec.Names (fun o => if o = 16 then 1 else 0) es (Spec.rebind (fun o => if o = 16 then 1 else 0) 16 2) := by
  refine ⟨[.incref 16, .asObject (.int 16)], ?_, ?_⟩
  · intro k o _
    have ht : Spec.target (.int 16) = some 16 := rfl
    match k with
    | 0 => simp [Spec.credit]
    | 1 => simp only [List.take_succ_cons, List.take_zero, Spec.credit]; split <;> omega
    | k + 2 =>
      simp only [List.take_succ_cons, List.take_nil, Spec.credit, ht, Option.some.injEq]
      split <;> omega
  · exact .incref (by decide) (.asObject (o := 16) rfl (by decide) (.nil _))

/-- C43. An address that is null or not an integer raises. -/
theorem C43_not_an_address (h : Heap) (a : Arg) (ha : a = .int 0 ∨ a = .other ∨ (∃ v, a = .index v) ∨
    ∃ v : Int, a = .int v ∧ (2 ^ 64 ≤ v ∨ v < -(2 ^ 63))) :
    ∃ e, UnsafeObj.step h (.asObject a) = .exc h e := by
  rcases ha with rfl | rfl | ⟨v, rfl⟩ | ⟨v, rfl, hv⟩
  · exact ⟨_, rfl⟩
  · exact ⟨_, rfl⟩
  · exact ⟨_, rfl⟩
  · refine ⟨.overflowError, ?_⟩
    simp only [UnsafeObj.step, UnsafeObj.asObject, Unsafe.asVoidPtr]
    rw [if_neg (by omega)]

example : ∃ v : Int, 2 ^ 64 ≤ v ∨ v < -(2 ^ 63) := ⟨2 ^ 64, .inl (by decide)⟩

end Verif.Props
