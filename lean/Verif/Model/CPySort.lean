import Verif.Model.Base

/-!
# `utils/include/CPythonSort.c`: the list sort used by `sort(key=…)` and by the object lists

Function by function. Conventions:

* One slot of a `sortslice` (a key pointer and, when there is a key function, the value pointer that is
  moved in lockstep with it, lines 147-171 and 392-442) is one element of type `ε`; the comparison looks
  at the key part. When there is no key function `ε` is the element itself.
* `Py_ssize_t` values are `Int`; the assertions that guard against overflow are checked.
* Everything the interpreter supplies is an oracle with its own state (`Host`): comparisons may answer
  anything, may change their mind, may raise; `PyMem_Malloc` may fail. The oracle cannot modify the slice
  being sorted.
* `assert`s are checked, reads and writes are bounds-checked, loops have an iteration budget computed from
  their bounds: a violation is the outcome `Fault`, so "no fault" says that the code is memory safe, that
  every `assert` holds and that every loop terminates.
* A return of -1 with an exception set is `none` with the error indicator in `St.err`.
-/

namespace Verif.CPySort

/-- What must not happen. Scaffolding of the model, no code of /repo. -/
inductive Fault
  | outOfBounds   -- read/write outside the slice or outside the initialised part of the work area
  | indeterminate -- use of a stack variable that was never written
  | overflow      -- `Py_ssize_t` overflow
  | assertion     -- failed `assert`
  | stackFull     -- write behind `pending[MAX_MERGE_PENDING]`
  | diverges      -- iteration budget exceeded
  deriving DecidableEq, Repr

/-- What the interpreter supplies: `ms->key_compare` (`ISLT`, 105), `PyMem_Malloc` (812), and whether
there is a key function (`ms->a.values != NULL`). `σ` is whatever the callbacks read and write. -/
structure Host (σ ε : Type) where
  lt : σ → ε → ε → Except Exc Bool × σ
  malloc : σ → Nat → Bool × σ
  keyed : Bool

/-- `struct s_slice` (155-159). `base` is relative to `ms->basekeys`; `power` is indeterminate until
`found_new_run` writes it. -/
structure Run where
  base : Int
  len : Int
  power : Option Nat
  deriving DecidableEq, Repr

/-- `MergeState` (163-208) together with the slice being sorted, the interpreter's error indicator and
the oracle's state. `pending` lists the stack from the top down. -/
structure St (σ ε : Type) where
  env : σ
  mem : List ε
  minGallop : Int
  alloced : Int
  pending : List Run
  err : Option Exc

/-- Computations on the merge state. Scaffolding of the model, no code of /repo. -/
abbrev M (σ ε α : Type) := StateT (St σ ε) (Except Fault) α

/-- `assert(b)`, or a check the C code does not make because it relies on it. (CPythonSort.c 132, 237, … 1595.) -/
def check (b : Bool) (f : Fault) : M σ ε Unit := fun s => if b then .ok ((), s) else .error f

/-- `ISLT(X, Y)` (105): -1 with the exception set is `none`. -/
def islt (h : Host σ ε) (x y : ε) : M σ ε (Option Bool) := fun s =>
  match h.lt s.env x y with
  | (.ok b, e) => .ok (some b, { s with env := e })
  | (.error x, e) => .ok (none, { s with env := e, err := some x })

/-- `ISLT` with the answer negated (an `IFLT … else` whose branches are swapped). (CPythonSort.c 104-109.) -/
def isnlt (h : Host σ ε) (x y : ε) : M σ ε (Option Bool) := do
  let r ← islt h x y
  pure (r.map (!·))

/-- `a[i]` for an array `a`. Scaffolding of the model, no code of /repo. -/
def rd (a : List ε) (i : Int) : M σ ε ε := fun s =>
  if i < 0 then .error .outOfBounds
  else match a[i.toNat]? with
    | some x => .ok (x, s)
    | none => .error .outOfBounds

/-- Read of the sorted slice at index `i`. (CPythonSort.c, `ms->basekeys[i]`.) -/
def rdm (i : Int) : M σ ε ε := fun s => rd s.mem i s

/-- Write of the sorted slice at index `i`. (CPythonSort.c, `lo.keys[i] = …`.) -/
def wr (i : Int) (x : ε) : M σ ε Unit := fun s =>
  if 0 ≤ i ∧ i.toNat < s.mem.length then .ok ((), { s with mem := s.mem.set i.toNat x })
  else .error .outOfBounds

/-- `sortslice_memmove` (400-406) within the sorted slice: `n` slots from `src` to `dst`. -/
def move (dst src n : Int) : M σ ε Unit := fun s =>
  if 0 ≤ n ∧ 0 ≤ dst ∧ 0 ≤ src ∧ dst + n ≤ s.mem.length ∧ src + n ≤ s.mem.length then
    .ok ((), { s with mem := s.mem.take dst.toNat ++ (s.mem.drop src.toNat).take n.toNat
                              ++ s.mem.drop (dst + n).toNat })
  else .error .outOfBounds

/-- `sortslice_memcpy` (392-398) out of the work area `t`: `n` slots from `t[src]` to the slice at
`dst`. -/
def store (t : List ε) (dst src n : Int) : M σ ε Unit := fun s =>
  if 0 ≤ n ∧ 0 ≤ dst ∧ 0 ≤ src ∧ dst + n ≤ s.mem.length ∧ src + n ≤ t.length then
    .ok ((), { s with mem := s.mem.take dst.toNat ++ (t.drop src.toNat).take n.toNat
                              ++ s.mem.drop (dst + n).toNat })
  else .error .outOfBounds

/-- `sortslice_memcpy(&ms->a, 0, …, src, n)` (843, 975) into the work area, which must have room; the
result is the initialised part of the work area. -/
def load (src n : Int) : M σ ε (List ε) := fun s =>
  if 0 ≤ n ∧ 0 ≤ src ∧ src + n ≤ s.mem.length ∧ n ≤ s.alloced then
    .ok ((s.mem.drop src.toNat).take n.toNat, s)
  else .error .outOfBounds

/-- `reverse_slice` (130-142), the loop: `lo` and `hi` (inclusive) move towards each other. -/
def reverseLoop : Nat → Int → Int → M σ ε Unit
  | 0, _, _ => fun _ => .error .diverges
  | f + 1, lo, hi =>
    if lo < hi then do
      let t ← rdm lo
      let u ← rdm hi
      wr lo u
      wr hi t
      reverseLoop f (lo + 1) (hi - 1)
    else pure ()

/-- `sortslice_reverse` (438-442): reverse the `n` slots from `lo`. -/
def reverseSlice (lo n : Int) : M σ ε Unit := reverseLoop (n.toNat + 1) lo (lo + n - 1)

/-! ## Galloping search -/

/-- The doubling loops of `gallop_right` (249-257, 269-275) and `gallop_left` (734-742, 754-761): probe at
`ofs` until `maxofs`, as long as `probe` says to go on; `(lastofs, ofs)` on exit. -/
def scan (probe : Int → M σ ε (Option Bool)) (maxofs : Int) : Nat → Int → Int → M σ ε (Option (Int × Int))
  | 0, _, _ => fun _ => .error .diverges
  | f + 1, lastofs, ofs =>
    if ofs < maxofs then do
      match ← probe ofs with
      | none => pure none
      | some true =>
        check (ofs ≤ (ssizeMax - 1) / 2) .overflow
        scan probe maxofs f ofs (2 * ofs + 1)
      | some false => pure (some (lastofs, ofs))
    else pure (some (lastofs, ofs))

/-- The binary search of `gallop_right` (288-296) and `gallop_left` (774-782): `probe m` = go left. -/
def bisect (probe : Int → M σ ε (Option Bool)) : Nat → Int → Int → M σ ε (Option Int)
  | 0, _, _ => fun _ => .error .diverges
  | f + 1, lastofs, ofs =>
    if lastofs < ofs then do
      let m := lastofs + (ofs - lastofs) / 2
      match ← probe m with
      | none => pure none
      | some true => bisect probe f lastofs m
      | some false => bisect probe f (m + 1) ofs
    else do
      check (lastofs = ofs) .assertion
      pure (some ofs)

/-- The common end of both searches (281-296, 767-782). -/
def gallopEnd (probe : Int → M σ ε (Option Bool)) (n lastofs ofs : Int) : M σ ε (Option Int) := do
  check (-1 ≤ lastofs ∧ lastofs < ofs ∧ ofs ≤ n) .assertion
  bisect probe ((ofs - (lastofs + 1)).toNat + 1) (lastofs + 1) ofs

/-- `if (ofs > maxofs) ofs = maxofs;` (258, 276, 743, 762). -/
def clip (ofs maxofs : Int) : Int := if ofs > maxofs then maxofs else ofs

/-- `gallop_right` (230-300) in the `n` slots of `a` from `base`. -/
def gallopRight (h : Host σ ε) (key : ε) (a : List ε) (base n hint : Int) : M σ ε (Option Int) := do
  check (0 < n ∧ 0 ≤ hint ∧ hint < n) .assertion
  let p := base + hint
  match ← islt h key (← rd a p) with
  | none => pure none
  | some true =>
    let maxofs := hint + 1
    match ← scan (fun ofs => do islt h key (← rd a (p - ofs))) maxofs (maxofs.toNat + 1) 0 1 with
    | none => pure none
    | some (lastofs, ofs) =>
      gallopEnd (fun m => do islt h key (← rd a (base + m))) n (hint - clip ofs maxofs) (hint - lastofs)
  | some false =>
    let maxofs := n - hint
    match ← scan (fun ofs => do isnlt h key (← rd a (p + ofs))) maxofs (maxofs.toNat + 1) 0 1 with
    | none => pure none
    | some (lastofs, ofs) =>
      gallopEnd (fun m => do islt h key (← rd a (base + m))) n (lastofs + hint) (clip ofs maxofs + hint)

/-- `gallop_left` (719-787). -/
def gallopLeft (h : Host σ ε) (key : ε) (a : List ε) (base n hint : Int) : M σ ε (Option Int) := do
  check (0 < n ∧ 0 ≤ hint ∧ hint < n) .assertion
  let p := base + hint
  match ← islt h (← rd a p) key with
  | none => pure none
  | some true =>
    let maxofs := n - hint
    match ← scan (fun ofs => do islt h (← rd a (p + ofs)) key) maxofs (maxofs.toNat + 1) 0 1 with
    | none => pure none
    | some (lastofs, ofs) =>
      gallopEnd (fun m => do isnlt h (← rd a (base + m)) key) n (lastofs + hint) (clip ofs maxofs + hint)
  | some false =>
    let maxofs := hint + 1
    match ← scan (fun ofs => do isnlt h (← rd a (p - ofs)) key) maxofs (maxofs.toNat + 1) 0 1 with
    | none => pure none
    | some (lastofs, ofs) =>
      gallopEnd (fun m => do isnlt h (← rd a (base + m)) key) n (hint - clip ofs maxofs) (hint - lastofs)

/-! ## Runs -/

/-- `merge_compute_minrun` (341-351), the loop: `n` and the bit `r`. -/
def minrunLoop : Nat → Nat → Nat → Nat
  | 0, n, r => n + r
  | f + 1, n, r => if 64 ≤ n then minrunLoop f (n / 2) (r ||| n % 2) else n + r

/-- `merge_compute_minrun` (341-351). The budget `n` is enough because `n` halves. -/
def minrun (n : Nat) : Nat := minrunLoop n n 0

/-- The ascending loops of `count_run` (483-485, 529-531): extend `n` while the next element is not
smaller. -/
def ascend (h : Host σ ε) (lo nrem : Int) : Nat → Int → M σ ε (Option Int)
  | 0, _ => fun _ => .error .diverges
  | f + 1, n =>
    if n < nrem then do
      match ← islt h (← rdm (lo + n)) (← rdm (lo + (n - 1))) with
      | none => pure none
      | some true => pure (some n)
      | some false => ascend h lo nrem f (n + 1)
    else pure (some n)

/-- `REVERSE_LAST_NEQ` (464-471). -/
def reverseLastNeq (lo n neq : Int) : M σ ε Unit :=
  if neq ≠ 0 then reverseSlice (lo + (n - (neq + 1))) (neq + 1) else pure ()

/-- The descending loop of `count_run` (509-521); `(n, neq)` on exit. -/
def descend (h : Host σ ε) (lo nrem : Int) : Nat → Int → Int → M σ ε (Option (Int × Int))
  | 0, _, _ => fun _ => .error .diverges
  | f + 1, n, neq =>
    if n < nrem then do
      match ← islt h (← rdm (lo + n)) (← rdm (lo + (n - 1))) with
      | none => pure none
      | some true =>
        reverseLastNeq lo n neq
        descend h lo nrem f (n + 1) 0
      | some false =>
        match ← islt h (← rdm (lo + (n - 1))) (← rdm (lo + n)) with
        | none => pure none
        | some true => pure (some (n, neq))
        | some false => descend h lo nrem f (n + 1) (neq + 1)
    else pure (some (n, neq))

/-- `count_run` from the point where a descending run of `n` elements is established (508-533). -/
def countDescending (h : Host σ ε) (lo nrem n : Int) : M σ ε (Option Int) := do
  match ← descend h lo nrem (nrem.toNat + 1) n 0 with
  | none => pure none
  | some (n, neq) =>
    reverseLastNeq lo n neq
    reverseSlice lo n
    ascend h lo nrem (nrem.toNat + 1) n

/-- `count_run` (452-540) on the slots from `lo`, at most `nrem` of them. -/
def countRun (h : Host σ ε) (lo nrem : Int) : M σ ε (Option Int) := do
  check (nrem ≠ 0) .assertion
  match ← ascend h lo nrem (nrem.toNat + 1) 1 with
  | none => pure none
  | some n =>
    if n = nrem then pure (some n)
    else if n > 1 then do
      match ← islt h (← rdm lo) (← rdm (lo + (n - 1))) with
      | none => pure none
      | some true => pure (some n)
      | some false =>
        reverseSlice lo n
        countDescending h lo nrem (n + 1)
    else countDescending h lo nrem (n + 1)

/-- The search of `binarysort` (619-652): where `pivot` belongs in `a[L:R]`. -/
def binLoop (h : Host σ ε) (lo : Int) (pivot : ε) : Nat → Int → Int → M σ ε (Option Int)
  | 0, _, _ => fun _ => .error .diverges
  | f + 1, l, r =>
    if l < r then do
      let m := (l + r) / 2
      match ← islt h pivot (← rdm (lo + m)) with
      | none => pure none
      | some true => binLoop h lo pivot f l m
      | some false => binLoop h lo pivot f (m + 1) r
    else do
      check (l = r) .assertion
      pure (some l)

/-- The sliding loop of `binarysort` (658-663): `for (M = ok; M > L; --M) a[M] = a[M - 1];`. -/
def slide (lo l : Int) : Nat → Int → M σ ε Unit
  | 0, _ => fun _ => .error .diverges
  | f + 1, m =>
    if m > l then do
      wr (lo + m) (← rdm (lo + (m - 1)))
      slide lo l f (m - 1)
    else pure ()

/-- The outer loop of `binarysort` (617-677). -/
def binaryLoop (h : Host σ ε) (lo n : Int) : Nat → Int → M σ ε (Option Unit)
  | 0, _ => fun _ => .error .diverges
  | f + 1, ok =>
    if ok < n then do
      let pivot ← rdm (lo + ok)
      check (0 < ok) .assertion
      match ← binLoop h lo pivot (ok.toNat + 1) 0 ok with
      | none => pure none
      | some l =>
        slide lo l (ok.toNat + 1) ok
        wr (lo + l) pivot
        binaryLoop h lo n f (ok + 1)
    else pure (some ())

/-- `binarysort` (553-683). -/
def binarysort (h : Host σ ε) (lo n ok : Int) : M σ ε (Option Unit) := do
  check (0 ≤ ok ∧ ok ≤ n ∧ 1 ≤ n ∧ n ≤ 64) .assertion
  binaryLoop h lo n (n.toNat + 1) (if ok = 0 then ok + 1 else ok)

/-! ## Merging -/

/-- `merge_getmem` (792-820) behind `MERGE_GETMEM` (822-823). -/
def getmem (h : Host σ ε) (need : Int) : M σ ε (Option Unit) := fun s =>
  if need ≤ s.alloced then .ok (some (), s)
  else if need > ssizeMax / 8 / (if h.keyed then 2 else 1) then
    .ok (none, { s with err := some .memoryError })
  else
    match h.malloc s.env need.toNat with
    | (true, e) => .ok (some (), { s with env := e, alloced := need })
    | (false, e) => .ok (none, { s with env := e, err := some .memoryError })

/-- How a merge loop is left: the labels `Succeed`, `Fail` and `CopyB`/`CopyA`. (CPythonSort.c 941-952, 1079-1092.) -/
inductive Exit
  | succeed | fail | copy
  deriving DecidableEq, Repr

/-- The variables of `merge_lo` / `merge_hi`: `dest` and the run that stayed in the slice are indices into
the slice, the other run's position is an index into the work area. (CPythonSort.c 831-853, 961-989.) -/
structure Vars where
  dest : Int
  sa : Int
  na : Int
  sb : Int
  nb : Int
  deriving DecidableEq, Repr

/-- The one-at-a-time loop of `merge_lo` (862-887). `none` = `break` into galloping. -/
def loSimple (h : Host σ ε) (t : List ε) (mg : Int) : Nat → Vars → Int → Int → M σ ε (Option Exit × Vars)
  | 0, _, _, _ => fun _ => .error .diverges
  | f + 1, v, acount, bcount => do
    check (v.na > 1 ∧ v.nb > 0) .assertion
    match ← islt h (← rdm v.sb) (← rd t v.sa) with
    | none => pure (some .fail, v)
    | some true =>
      wr v.dest (← rdm v.sb)
      let v := { v with dest := v.dest + 1, sb := v.sb + 1, nb := v.nb - 1 }
      if v.nb = 0 then pure (some .succeed, v)
      else if bcount + 1 ≥ mg then pure (none, v)
      else loSimple h t mg f v 0 (bcount + 1)
    | some false =>
      wr v.dest (← rd t v.sa)
      let v := { v with dest := v.dest + 1, sa := v.sa + 1, na := v.na - 1 }
      if v.na = 1 then pure (some .copy, v)
      else if acount + 1 ≥ mg then pure (none, v)
      else loSimple h t mg f v (acount + 1) 0

/-- Second half of one galloping round of `merge_lo` (916-936): copy one element of B, then gallop in B,
then copy one element of A. The number is `bcount`. -/
def loGallopB (h : Host σ ε) (t : List ε) (v : Vars) : M σ ε (Option Exit × Vars × Int) := do
  wr v.dest (← rdm v.sb)
  let v := { v with dest := v.dest + 1, sb := v.sb + 1, nb := v.nb - 1 }
  if v.nb = 0 then pure (some .succeed, v, 0)
  else do
    match ← gallopLeft h (← rd t v.sa) (← get).mem v.sb v.nb 0 with
    | none => pure (some .fail, v, 0)
    | some k =>
      if k ≠ 0 then move v.dest v.sb k
      let v := { v with dest := v.dest + k, sb := v.sb + k, nb := v.nb - k }
      if k ≠ 0 ∧ v.nb = 0 then pure (some .succeed, v, k)
      else do
        wr v.dest (← rd t v.sa)
        let v := { v with dest := v.dest + 1, sa := v.sa + 1, na := v.na - 1 }
        if v.na = 1 then pure (some .copy, v, k) else pure (none, v, k)

/-- The galloping loop of `merge_lo` (894-937). On `none` the number is the current `min_gallop`. -/
def loGallop (h : Host σ ε) (t : List ε) : Nat → Vars → Int → M σ ε (Option Exit × Vars × Int)
  | 0, _, _ => fun _ => .error .diverges
  | f + 1, v, mg => do
    check (v.na > 1 ∧ v.nb > 0) .assertion
    let mg := mg - (if mg > 1 then 1 else 0)
    modify fun s => { s with minGallop := mg }
    match ← gallopRight h (← rdm v.sb) t v.sa v.na 0 with
    | none => pure (some .fail, v, mg)
    | some k =>
      if k ≠ 0 then store t v.dest v.sa k
      let v := { v with dest := v.dest + k, sa := v.sa + k, na := v.na - k }
      if k ≠ 0 ∧ v.na = 1 then pure (some .copy, v, mg)
      else if k ≠ 0 ∧ v.na = 0 then pure (some .succeed, v, mg)
      else do
        match ← loGallopB h t v with
        | (some e, v, _) => pure (some e, v, mg)
        | (none, v, bcount) =>
          if k ≥ 7 ∨ bcount ≥ 7 then loGallop h t f v mg else pure (none, v, mg)

/-- The outer loop of `merge_lo` (855-940). -/
def loOuter (h : Host σ ε) (t : List ε) : Nat → Vars → Int → M σ ε (Exit × Vars)
  | 0, _, _ => fun _ => .error .diverges
  | f + 1, v, mg => do
    match ← loSimple h t mg ((v.na + v.nb).toNat + 1) v 0 0 with
    | (some e, v) => pure (e, v)
    | (none, v) =>
      match ← loGallop h t ((v.na + v.nb).toNat + 1) v (mg + 1) with
      | (some e, v, _) => pure (e, v)
      | (none, v, mg) =>
        modify fun s => { s with minGallop := mg + 1 }
        loOuter h t f v (mg + 1)

/-- The labels `Succeed`, `Fail` and `CopyB` of `merge_lo` (941-952). -/
def loExit (t : List ε) (e : Exit) (v : Vars) : M σ ε (Option Unit) :=
  match e with
  | .succeed => do
    if v.na ≠ 0 then store t v.dest v.sa v.na
    pure (some ())
  | .fail => do
    if v.na ≠ 0 then store t v.dest v.sa v.na
    pure none
  | .copy => do
    check (v.na = 1 ∧ v.nb > 0) .assertion
    move v.dest v.sb v.nb
    wr (v.dest + v.nb) (← rd t v.sa)
    pure (some ())

/-- `merge_lo` (831-953). -/
def mergeLo (h : Host σ ε) (ssa na ssb nb : Int) : M σ ε (Option Unit) := do
  check (na > 0 ∧ nb > 0 ∧ ssa + na = ssb) .assertion
  match ← getmem h na with
  | none => pure none
  | some _ =>
    let t ← load ssa na
    wr ssa (← rdm ssb)
    let v : Vars := { dest := ssa + 1, sa := 0, na := na, sb := ssb + 1, nb := nb - 1 }
    if v.nb = 0 then loExit t .succeed v
    else if na = 1 then loExit t .copy v
    else do
      let (e, v) ← loOuter h t ((v.na + v.nb).toNat + 1) v (← get).minGallop
      loExit t e v

/-- The one-at-a-time loop of `merge_hi` (998-1023). -/
def hiSimple (h : Host σ ε) (t : List ε) (mg : Int) : Nat → Vars → Int → Int → M σ ε (Option Exit × Vars)
  | 0, _, _, _ => fun _ => .error .diverges
  | f + 1, v, acount, bcount => do
    check (v.na > 0 ∧ v.nb > 1) .assertion
    match ← islt h (← rd t v.sb) (← rdm v.sa) with
    | none => pure (some .fail, v)
    | some true =>
      wr v.dest (← rdm v.sa)
      let v := { v with dest := v.dest - 1, sa := v.sa - 1, na := v.na - 1 }
      if v.na = 0 then pure (some .succeed, v)
      else if acount + 1 ≥ mg then pure (none, v)
      else hiSimple h t mg f v (acount + 1) 0
    | some false =>
      wr v.dest (← rd t v.sb)
      let v := { v with dest := v.dest - 1, sb := v.sb - 1, nb := v.nb - 1 }
      if v.nb = 1 then pure (some .copy, v)
      else if bcount + 1 ≥ mg then pure (none, v)
      else hiSimple h t mg f v 0 (bcount + 1)

/-- Second half of one galloping round of `merge_hi` (1047-1074). -/
def hiGallopB (h : Host σ ε) (t : List ε) (v : Vars) : M σ ε (Option Exit × Vars × Int) := do
  wr v.dest (← rd t v.sb)
  let v := { v with dest := v.dest - 1, sb := v.sb - 1, nb := v.nb - 1 }
  if v.nb = 1 then pure (some .copy, v, 0)
  else do
    match ← gallopLeft h (← rdm v.sa) t 0 v.nb (v.nb - 1) with
    | none => pure (some .fail, v, 0)
    | some k =>
      let k := v.nb - k
      let v' := { v with dest := v.dest - k, sb := v.sb - k, nb := v.nb - k }
      if k ≠ 0 then store t (v'.dest + 1) (v'.sb + 1) k
      if k ≠ 0 ∧ v'.nb = 1 then pure (some .copy, v', k)
      else if k ≠ 0 ∧ v'.nb = 0 then pure (some .succeed, v', k)
      else do
        wr v'.dest (← rdm v'.sa)
        let v := { v' with dest := v'.dest - 1, sa := v'.sa - 1, na := v'.na - 1 }
        if v.na = 0 then pure (some .succeed, v, k) else pure (none, v, k)

/-- The galloping loop of `merge_hi` (1030-1075). `basea` is where run A starts in the slice. -/
def hiGallop (h : Host σ ε) (t : List ε) (basea : Int) :
    Nat → Vars → Int → M σ ε (Option Exit × Vars × Int)
  | 0, _, _ => fun _ => .error .diverges
  | f + 1, v, mg => do
    check (v.na > 0 ∧ v.nb > 1) .assertion
    let mg := mg - (if mg > 1 then 1 else 0)
    modify fun s => { s with minGallop := mg }
    match ← gallopRight h (← rd t v.sb) (← get).mem basea v.na (v.na - 1) with
    | none => pure (some .fail, v, mg)
    | some k =>
      let k := v.na - k
      let v' := { v with dest := v.dest - k, sa := v.sa - k, na := v.na - k }
      if k ≠ 0 then move (v'.dest + 1) (v'.sa + 1) k
      if k ≠ 0 ∧ v'.na = 0 then pure (some .succeed, v', mg)
      else do
        match ← hiGallopB h t v' with
        | (some e, v, _) => pure (some e, v, mg)
        | (none, v, bcount) =>
          if k ≥ 7 ∨ bcount ≥ 7 then hiGallop h t basea f v mg else pure (none, v, mg)

/-- The outer loop of `merge_hi` (991-1078). -/
def hiOuter (h : Host σ ε) (t : List ε) (basea : Int) : Nat → Vars → Int → M σ ε (Exit × Vars)
  | 0, _, _ => fun _ => .error .diverges
  | f + 1, v, mg => do
    match ← hiSimple h t mg ((v.na + v.nb).toNat + 1) v 0 0 with
    | (some e, v) => pure (e, v)
    | (none, v) =>
      match ← hiGallop h t basea ((v.na + v.nb).toNat + 1) v (mg + 1) with
      | (some e, v, _) => pure (e, v)
      | (none, v, mg) =>
        modify fun s => { s with minGallop := mg + 1 }
        hiOuter h t basea f v (mg + 1)

/-- The labels `Succeed`, `Fail` and `CopyA` of `merge_hi` (1079-1092). -/
def hiExit (t : List ε) (e : Exit) (v : Vars) : M σ ε (Option Unit) :=
  match e with
  | .succeed => do
    if v.nb ≠ 0 then store t (v.dest - (v.nb - 1)) 0 v.nb
    pure (some ())
  | .fail => do
    if v.nb ≠ 0 then store t (v.dest - (v.nb - 1)) 0 v.nb
    pure none
  | .copy => do
    check (v.nb = 1 ∧ v.na > 0) .assertion
    move (v.dest + (1 - v.na)) (v.sa + (1 - v.na)) v.na
    wr (v.dest - v.na) (← rd t v.sb)
    pure (some ())

/-- `merge_hi` (961-1093). -/
def mergeHi (h : Host σ ε) (ssa na ssb nb : Int) : M σ ε (Option Unit) := do
  check (na > 0 ∧ nb > 0 ∧ ssa + na = ssb) .assertion
  match ← getmem h nb with
  | none => pure none
  | some _ =>
    let t ← load ssb nb
    let sa := ssa + (na - 1)
    wr (ssb + (nb - 1)) (← rdm sa)
    let v : Vars := { dest := ssb + (nb - 1) - 1, sa := sa - 1, na := na - 1, sb := nb - 1, nb := nb }
    if v.na = 0 then hiExit t .succeed v
    else if nb = 1 then hiExit t .copy v
    else do
      let (e, v) ← hiOuter h t ssa ((v.na + v.nb).toNat + 1) v (← get).minGallop
      hiExit t e v

/-- `merge_at` (1098-1150) once the runs and their new stack entry are determined (1124-1149). -/
def mergeRuns (h : Host σ ε) (ssa na ssb nb : Int) : M σ ε (Option Unit) := do
  match ← gallopRight h (← rdm ssb) (← get).mem ssa na 0 with
  | none => pure none
  | some k =>
    let ssa := ssa + k
    let na := na - k
    if na = 0 then pure (some ())
    else do
      match ← gallopLeft h (← rdm (ssa + (na - 1))) (← get).mem ssb nb (nb - 1) with
      | none => pure none
      | some nb =>
        if nb ≤ 0 then pure (some ())
        else if na ≤ nb then mergeLo h ssa na ssb nb
        else mergeHi h ssa na ssb nb

/-- `merge_at` (1098-1150). `third` = the argument is `ms->n - 3`, otherwise it is `ms->n - 2`. The merged
entry keeps `pending[i]`'s base and power; with `third` the last entry is slid down. -/
def mergeAt (h : Host σ ε) (third : Bool) : M σ ε (Option Unit) := do
  match third, (← get).pending with
  | false, b :: a :: rest =>
    check (a.len > 0 ∧ b.len > 0 ∧ a.base + a.len = b.base) .assertion
    modify fun s => { s with pending := { a with len := a.len + b.len } :: rest }
    mergeRuns h a.base a.len b.base b.len
  | true, c :: b :: a :: rest =>
    check (a.len > 0 ∧ b.len > 0 ∧ a.base + a.len = b.base) .assertion
    modify fun s => { s with pending := c :: { a with len := a.len + b.len } :: rest }
    mergeRuns h a.base a.len b.base b.len
  | _, _ => fun _ => .error .assertion

/-- `powerloop` (358-390), the loop. -/
def powerLoop (n : Int) : Nat → Int → Int → Nat → M σ ε Nat
  | 0, _, _, _ => fun _ => .error .diverges
  | f + 1, a, b, result =>
    if a ≥ n then do
      check (b ≥ a) .assertion
      check (a - n < b - n ∧ b - n < n) .assertion
      powerLoop n f (2 * (a - n)) (2 * (b - n)) (result + 1)
    else if b ≥ n then pure (result + 1)
    else do
      check (a < b ∧ b < n) .assertion
      powerLoop n f (2 * a) (2 * b) (result + 1)

/-- `powerloop` (358-390). The budget 64 exceeds the number of bits of `n`. -/
def powerloop (s1 n1 n2 n : Int) : M σ ε Nat := do
  check (0 ≤ s1 ∧ 0 < n1 ∧ 0 < n2 ∧ s1 + n1 + n2 ≤ n) .assertion
  let a := 2 * s1 + n1
  powerLoop n 64 a (a + n1 + n2) 0

/-- The loop of `found_new_run` (1172-1175). -/
def mergeWhile (h : Host σ ε) (power : Nat) : Nat → M σ ε (Option Unit)
  | 0 => fun _ => .error .diverges
  | f + 1 => do
    match (← get).pending with
    | _ :: a :: _ =>
      match a.power with
      | none => fun _ => .error .indeterminate
      | some p =>
        if p > power then do
          match ← mergeAt h false with
          | none => pure none
          | some _ => mergeWhile h power f
        else pure (some ())
    | _ => pure (some ())

/-- `found_new_run` (1163-1180); `listlen` is `ms->listlen`. -/
def foundNewRun (h : Host σ ε) (listlen n2 : Int) : M σ ε (Option Unit) := do
  match (← get).pending with
  | [] => pure (some ())
  | top :: rest =>
    let power ← powerloop top.base top.len n2 listlen
    match ← mergeWhile h power (rest.length + 1) with
    | none => pure none
    | some _ =>
      match (← get).pending with
      | [] => fun _ => .error .outOfBounds
      | top :: rest =>
        match rest with
        | [] => pure ()
        | a :: _ => match a.power with
          | none => fun _ => .error .indeterminate
          | some p => check (p < power) .assertion
        modify fun s => { s with pending := { top with power := some power } :: rest }
        pure (some ())

/-- `merge_force_collapse` (1187-1200). -/
def forceCollapse (h : Host σ ε) : Nat → M σ ε (Option Unit)
  | 0 => fun _ => .error .diverges
  | f + 1 => do
    match (← get).pending with
    | c :: _ :: a :: _ =>
      match ← mergeAt h (a.len < c.len) with
      | none => pure none
      | some _ => forceCollapse h f
    | [_, _] =>
      match ← mergeAt h false with
      | none => pure none
      | some _ => forceCollapse h f
    | _ => pure (some ())

/-- The body of `do … while (nremaining)` of `CPython_sort` (1559-1587): find a run, extend it, merge
pending runs, push it. `some n` = the length of the run pushed. -/
def nextRun (h : Host σ ε) (listlen minrun lo nrem : Int) : M σ ε (Option Int) := do
  match ← countRun h lo nrem with
  | none => pure none
  | some n =>
    let force := if nrem ≤ minrun then nrem else minrun
    let ext ← if n < minrun then binarysort h lo force n else pure (some ())
    match ext with
    | none => pure none
    | some _ =>
      let n := if n < minrun then force else n
      match (← get).pending with
      | [] => pure ()
      | top :: _ => check (top.base + top.len = lo) .assertion
      match ← foundNewRun h listlen n with
      | none => pure none
      | some _ =>
        check ((← get).pending.length < 64) .stackFull
        modify fun s => { s with pending := { base := lo, len := n, power := none } :: s.pending }
        pure (some n)

/-- The main loop of `CPython_sort` (1559-1587). -/
def runLoop (h : Host σ ε) (listlen minrun : Int) : Nat → Int → Int → M σ ε (Option Unit)
  | 0, _, _ => fun _ => .error .diverges
  | f + 1, lo, nrem => do
    match ← nextRun h listlen minrun lo nrem with
    | none => pure none
    | some n => if nrem - n = 0 then pure (some ()) else runLoop h listlen minrun f (lo + n) (nrem - n)

/-- `CPython_sort` between the key computation and the final reversal (1542-1598), after `merge_init`
(302-329). -/
def listsort (h : Host σ ε) (n : Int) (reverse : Bool) : M σ ε (Option Unit) := do
  if n < 2 then pure (some ())
  else do
    if reverse then reverseSlice 0 n
    match ← runLoop h n (minrun n.toNat) (n.toNat + 1) 0 n with
    | none => pure none
    | some _ =>
      match ← forceCollapse h 66 with
      | none => pure none
      | some _ =>
        match (← get).pending with
        | [r] => check (r.base = 0 ∧ r.len = n) .assertion
        | _ => fun _ => .error .assertion
        pure (some ())

/-- `ms->alloced` after `merge_init` (306-324). -/
def initAlloced (keyed : Bool) (n : Nat) : Nat :=
  if keyed then (if 256 / 2 < (n + 1) / 2 then 256 / 2 else (n + 1) / 2) else 256

/-- `CPython_sort` (1388-1632) from 1541 on, including the reversal at `fail:` (1608-1609), for slots
`items`: `(success, slots afterwards, oracle state, error indicator)`. -/
def sortSlots (h : Host σ ε) (env : σ) (items : List ε) (reverse : Bool) :
    Except Fault (Bool × List ε × σ × Option Exc) := do
  let s : St σ ε := { env := env, mem := items, minGallop := 7,
                      alloced := initAlloced h.keyed items.length, pending := [], err := none }
  let (r, s) ← listsort h items.length reverse s
  let ((), s) ← (if reverse && decide (1 < items.length) then reverseSlice 0 items.length else pure () : M σ ε Unit) s
  pure (r.isSome, s.mem, s.env, s.err)

/-! ## The key function -/

/-- Oracle of a whole sort of elements `ν` with keys `κ`: the key function, the comparison of keys, the
allocator. (What CPythonSort.c 1388-1632 is given from outside.) -/
structure Caller (σ κ ν : Type) where
  key : σ → ν → Except Exc κ × σ
  lt : σ → κ → κ → Except Exc Bool × σ
  malloc : σ → Nat → Bool × σ

/-- The key loop of `CPython_sort` (1432-1441). -/
def keysOf (c : Caller σ κ ν) : σ → List ν → Except Exc (List κ) × σ
  | e, [] => (.ok [], e)
  | e, x :: xs =>
    match c.key e x with
    | (.error x, e) => (.error x, e)
    | (.ok k, e) =>
      match keysOf c e xs with
      | (.error x, e) => (.error x, e)
      | (.ok ks, e) => (.ok (k :: ks), e)

/-- The comparison oracle on slots (key, value). (CPythonSort.c 1432-1444.) -/
def keyedHost (c : Caller σ κ ν) : Host σ (κ × ν) :=
  { lt := fun e x y => c.lt e x.1 y.1, malloc := c.malloc, keyed := true }

/-- `CPython_sort(items, size, keyfunc, reverse)` with a key function (1388-1632). A key array of 128 or
more elements is allocated (1424-1429). The result lists success, the elements afterwards, the oracle state
and the error indicator. -/
def sortKeyed (c : Caller σ κ ν) (env : σ) (items : List ν) (reverse : Bool) :
    Except Fault (Bool × List ν × σ × Option Exc) :=
  let (got, env) := if items.length < 256 / 2 then (true, env) else c.malloc env items.length
  if !got then .ok (false, items, env, some .memoryError)
  else
    match keysOf c env items with
    | (.error x, env) => .ok (false, items, env, some x)
    | (.ok ks, env) => do
      let (ok, slots, env, err) ← sortSlots (keyedHost c) env (ks.zip items) reverse
      pure (ok, slots.map (·.2), env, err)

/-- The comparison oracle on the elements themselves. (CPythonSort.c 1416-1420.) -/
def plainHost (c : Caller σ κ κ) : Host σ κ := { lt := c.lt, malloc := c.malloc, keyed := false }

/-- `CPython_sort(items, size, NULL, reverse)` (1388-1632). -/
def sortPlain (c : Caller σ κ κ) (env : σ) (items : List κ) (reverse : Bool) :
    Except Fault (Bool × List κ × σ × Option Exc) :=
  sortSlots (plainHost c) env items reverse

/-! ## The work area on the C stack -/

/-- Where `CPython_sort` puts things inside `temparray[256]` (302-324, 1421-1423) for `n` elements with a key
function: the merge work area for keys and for values, and the key array when it lives there; each as
(first slot, number of slots). -/
def stackLayout (n : Nat) : List (Nat × Nat) :=
  let al := initAlloced true n
  [(0, al), (al, al)] ++ (if n < 256 / 2 then [(n + 1, n)] else [])

end Verif.CPySort
