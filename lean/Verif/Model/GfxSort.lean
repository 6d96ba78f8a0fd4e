import Verif.Model.CPySort

/-!
# `utils/include/TimSort.h`: `gfx::timsort`, the fallback of `sort()` for more than 5000 elements

Line numbers are those of TimSort.h. The file is a C++ port of the same algorithm as CPythonSort.c, and where the code
is the same step by step we use the definitions of `Verif.Model.CPySort`:

* `gallopRight` (289-337) and `gallopLeft` (238-286). `lower_bound` / `upper_bound` are the binary search `bisect`
  (libstdc++ probes `first + len / 2`); `if (ofs <= 0)` never triggers because the searched length is below 2^60.
* `binarySort` (96-108): `upper_bound` over the sorted part is `binLoop`, `rotateRight` (345-350) is `slide` followed by
  the write.
* the one-at-a-time loop of `mergeLo` (380-406) is `loSimple`, the second half of its galloping round (422-443) is
  `loGallopB`; the same for `mergeHi` (`hiSimple` 501-526, `hiGallopB` 546-571; the model keeps `cursor1` pointing at
  the element, as the C++ code does within its first loop). `count1 | count2` is the one that is not 0.
* the non-decreasing branch of `countRunAndMakeAscending` (128-133) is `ascend`, `std::ranges::reverse` is
  `reverseSlice`, `minRunLength` (138-147) is `minrun`.

The comparison is `<` or `>` of the language: it raises nothing and always answers the same, so that `none` (an
exception) never occurs. `minGallop` is a C++ `int`; the model lets it be any integer and records in the field `alloced`
of the state (which has no other use here) whether it ever left the range of `int`, which is undefined behaviour.
The assertions of the file are compiled out; those in the model are checked. The work area and the stack of runs are
`std::vector`s; running out of memory is not modelled.
-/

namespace Verif.Gfx

open CPySort

variable {σ ε : Type}

/-- The comparison: a function. (`comp` of TimSort.h 97-180 and so on.) -/
def pureHost (lt : ε → ε → Bool) : Host Unit ε := ⟨fun _ x y => (.ok (lt x y), ()), fun _ _ => (true, ()), false⟩

/-- Is this a value of `int`? Scaffolding of the model, no code of /repo. -/
def isInt (x : Int) : Bool := decide (-2 ^ 31 ≤ x ∧ x < 2 ^ 31)

/-- Record signed overflow. (Of `minGallop`, TimSort.h 377-460, 497-590.) -/
def note (x : Int) : M σ ε Unit := modify fun s => { s with alloced := if isInt x then s.alloced else 1 }

/-- `--minGallop` (449, 577). -/
def dec (mg : Int) : M σ ε Int := do
  note (mg - 1)
  pure (mg - 1)

/-- `if (minGallop < 0) minGallop = 0; minGallop += 2;` (452-455, 580-583). -/
def bump (mg : Int) : M σ ε Int := do
  let mg := if mg < 0 then 0 else mg
  note (mg + 2)
  pure (mg + 2)

/-- `countRunAndMakeAscending`, the decreasing branch (122-126). -/
def descend (h : Host σ ε) (lo nrem : Int) : Nat → Int → M σ ε (Option Int)
  | 0, _ => fun _ => .error .diverges
  | f + 1, n =>
    if n < nrem then do
      match ← islt h (← rdm (lo + n)) (← rdm (lo + (n - 1))) with
      | none => pure none
      | some true => descend h lo nrem f (n + 1)
      | some false => pure (some n)
    else pure (some n)

/-- `countRunAndMakeAscending` (111-136) on the `nrem` elements from `lo`. -/
def countRun (h : Host σ ε) (lo nrem : Int) : M σ ε (Option Int) := do
  check (0 < nrem) .assertion
  if nrem = 1 then pure (some 1)
  else do
    match ← islt h (← rdm (lo + 1)) (← rdm lo) with
    | none => pure none
    | some true =>
      match ← descend h lo nrem (nrem.toNat + 1) 2 with
      | none => pure none
      | some n =>
        reverseSlice lo n
        pure (some n)
    | some false => ascend h lo nrem (nrem.toNat + 1) 2

/-- `binarySort` (96-108) on the `n` elements from `lo`, of which the first `ok` are sorted. -/
def binarySort (h : Host σ ε) (lo n ok : Int) : M σ ε (Option Unit) := do
  check (0 ≤ ok ∧ ok ≤ n) .assertion
  binaryLoop h lo n (n.toNat + 1) (if ok = 0 then ok + 1 else ok)

/-- `move_to_tmp` (605-608). -/
def toTmp (src n : Int) : M σ ε (List ε) := fun s =>
  if 0 ≤ n ∧ 0 ≤ src ∧ src + n ≤ s.mem.length then .ok ((s.mem.drop src.toNat).take n.toNat, s)
  else .error .outOfBounds

/-- `rotateLeft` (339-343). -/
def rotateLeft (first last : Int) : M σ ε Unit := do
  let tmp ← rdm first
  move first (first + 1) (last - (first + 1))
  wr (last - 1) tmp

/-- `rotateRight` (345-350). -/
def rotateRight (first last : Int) : M σ ε Unit := do
  let tmp ← rdm (last - 1)
  move (first + 1) first (last - 1 - first)
  wr first tmp

/-- The galloping loop of `mergeLo` (408-450). -/
def loGallop (h : Host σ ε) (t : List ε) : Nat → Vars → Int → M σ ε (Option Exit × Vars × Int)
  | 0, _, _ => fun _ => .error .diverges
  | f + 1, v, mg => do
    check (v.na > 1 ∧ v.nb > 0) .assertion
    match ← gallopRight h (← rdm v.sb) t v.sa v.na 0 with
    | none => pure (some .fail, v, mg)
    | some k =>
      if k ≠ 0 then store t v.dest v.sa k
      let v := { v with dest := v.dest + k, sa := v.sa + k, na := v.na - k }
      if k ≠ 0 ∧ v.na ≤ 1 then pure (some (if v.na = 1 then .copy else .succeed), v, mg)
      else do
        match ← loGallopB h t v with
        | (some e, v, _) => pure (some e, v, mg)
        | (none, v, count2) => do
          let mg ← dec mg
          if k ≥ 7 ∨ count2 ≥ 7 then loGallop h t f v mg else pure (none, v, mg)

/-- The outer loop of `mergeLo` (376-456); with the final `minGallop`. -/
def loOuter (h : Host σ ε) (t : List ε) : Nat → Vars → Int → M σ ε (Exit × Vars × Int)
  | 0, _, _ => fun _ => .error .diverges
  | f + 1, v, mg => do
    match ← loSimple h t mg ((v.na + v.nb).toNat + 1) v 0 0 with
    | (some e, v) => pure (e, v, mg)
    | (none, v) =>
      match ← loGallop h t ((v.na + v.nb).toNat + 1) v mg with
      | (some e, v, mg) => pure (e, v, mg)
      | (none, v, mg) => do
        let mg ← bump mg
        loOuter h t f v mg

/-- The epilogue of `mergeLo` (462-470): which part is left is read off `len1`. -/
def loEpilogue (t : List ε) (v : Vars) : M σ ε (Option Unit) := do
  if v.na = 1 then do
    move v.dest v.sb v.nb
    wr (v.dest + v.nb) (← rd t v.sa)
    pure (some ())
  else do
    store t v.dest v.sa v.na
    pure (some ())

/-- `mergeLo` (353-471); `minGallop_` is kept in the state (461). -/
def mergeLo (h : Host σ ε) (ssa na ssb nb : Int) : M σ ε (Option Unit) := do
  check (na > 0 ∧ nb > 0 ∧ ssa + na = ssb) .assertion
  if na = 1 then do
    rotateLeft ssa (ssb + nb)
    pure (some ())
  else if nb = 1 then do
    rotateRight ssa (ssb + nb)
    pure (some ())
  else do
    let t ← toTmp ssa na
    wr ssa (← rdm ssb)
    let v : Vars := { dest := ssa + 1, sa := 0, na := na, sb := ssb + 1, nb := nb - 1 }
    let (_, v, mg) ← loOuter h t ((v.na + v.nb).toNat + 1) v (← get).minGallop
    modify fun s => { s with minGallop := if mg < 1 then mg else 1 }
    loEpilogue t v

/-- The galloping loop of `mergeHi` (529-578). -/
def hiGallop (h : Host σ ε) (t : List ε) (basea : Int) : Nat → Vars → Int → M σ ε (Option Exit × Vars × Int)
  | 0, _, _ => fun _ => .error .diverges
  | f + 1, v, mg => do
    check (v.na > 0 ∧ v.nb > 1) .assertion
    match ← gallopRight h (← rd t v.sb) (← get).mem basea v.na (v.na - 1) with
    | none => pure (some .fail, v, mg)
    | some k =>
      let k := v.na - k
      let v' := { v with dest := v.dest - k, sa := v.sa - k, na := v.na - k }
      if k ≠ 0 then move (v'.dest + 1) (v'.sa + 1) k
      if k ≠ 0 ∧ v'.na = 0 then pure (some .succeed, v', mg)
      else do
        match ← hiGallopB h t v' with
        | (some e, v, _) => pure (some e, v, mg)
        | (none, v, count2) => do
          let mg ← dec mg
          if k ≥ 7 ∨ count2 ≥ 7 then hiGallop h t basea f v mg else pure (none, v, mg)

/-- The outer loop of `mergeHi` (497-584). -/
def hiOuter (h : Host σ ε) (t : List ε) (basea : Int) : Nat → Vars → Int → M σ ε (Exit × Vars × Int)
  | 0, _, _ => fun _ => .error .diverges
  | f + 1, v, mg => do
    match ← hiSimple h t mg ((v.na + v.nb).toNat + 1) v 0 0 with
    | (some e, v) => pure (e, v, mg)
    | (none, v) =>
      match ← hiGallop h t basea ((v.na + v.nb).toNat + 1) v mg with
      | (some e, v, mg) => pure (e, v, mg)
      | (none, v, mg) => do
        let mg ← bump mg
        hiOuter h t basea f v mg

/-- The epilogue of `mergeHi` (590-602). -/
def hiEpilogue (t : List ε) (v : Vars) : M σ ε (Option Unit) := do
  if v.nb = 1 then do
    move (v.dest + (1 - v.na)) (v.sa + (1 - v.na)) v.na
    wr (v.dest - v.na) (← rd t v.sb)
    pure (some ())
  else do
    store t (v.dest - (v.nb - 1)) 0 v.nb
    pure (some ())

/-- `mergeHi` (474-603). -/
def mergeHi (h : Host σ ε) (ssa na ssb nb : Int) : M σ ε (Option Unit) := do
  check (na > 0 ∧ nb > 0 ∧ ssa + na = ssb) .assertion
  if na = 1 then do
    rotateLeft ssa (ssb + nb)
    pure (some ())
  else if nb = 1 then do
    rotateRight ssa (ssb + nb)
    pure (some ())
  else do
    let t ← toTmp ssb nb
    let sa := ssa + (na - 1)
    wr (ssb + (nb - 1)) (← rdm sa)
    let v : Vars := { dest := ssb + (nb - 1) - 1, sa := sa - 1, na := na - 1, sb := nb - 1, nb := nb }
    let (_, v, mg) ← hiOuter h t ssa ((v.na + v.nb).toNat + 1) v (← get).minGallop
    modify fun s => { s with minGallop := if mg < 1 then mg else 1 }
    hiEpilogue t v

/-- `mergeConsecutiveRuns` (208-235). -/
def mergeRuns (h : Host σ ε) (ssa na ssb nb : Int) : M σ ε (Option Unit) := do
  match ← gallopRight h (← rdm ssb) (← get).mem ssa na 0 with
  | none => pure none
  | some k =>
    let ssa := ssa + k
    let na := na - k
    if na = 0 then pure (some ())
    else do
      match ← gallopLeft h (← rdm (ssa + (na - 1))) (← get).mem ssb nb (nb - 1) with
      | none => pure none
      | some nb =>
        if nb = 0 then pure (some ())
        else if na ≤ nb then mergeLo h ssa na ssb nb
        else mergeHi h ssa na ssb nb

/-- `mergeAt` (185-205); `third` = the argument is `stackSize - 3`, otherwise `stackSize - 2`. The stack is listed
from the top down. -/
def mergeAt (h : Host σ ε) (third : Bool) : M σ ε (Option Unit) := do
  match third, (← get).pending with
  | false, b :: a :: rest =>
    check (a.len > 0 ∧ b.len > 0 ∧ a.base + a.len = b.base) .assertion
    modify fun s => { s with pending := { a with len := a.len + b.len } :: rest }
    mergeRuns h a.base a.len b.base b.len
  | true, c :: b :: a :: rest =>
    check (a.len > 0 ∧ b.len > 0 ∧ a.base + a.len = b.base) .assertion
    modify fun s => { s with pending := c :: { a with len := a.len + b.len } :: rest }
    mergeRuns h a.base a.len b.base b.len
  | _, _ => fun _ => .error .assertion

/-- What `mergeCollapse` does with the stack (156-168): merge at `stackSize - 3` (`some true`), at `stackSize - 2`
(`some false`), or stop. -/
def toMerge : List Run → Option Bool
  | c :: b :: a :: z :: _ =>
    if a.len ≤ b.len + c.len ∨ z.len ≤ a.len + b.len then some (decide (a.len < c.len))
    else if b.len ≤ c.len then some false else none
  | [c, b, a] =>
    if a.len ≤ b.len + c.len then some (decide (a.len < c.len))
    else if b.len ≤ c.len then some false else none
  | [c, b] => if b.len ≤ c.len then some false else none
  | _ => none

/-- `mergeCollapse` (154-170). -/
def collapse (h : Host σ ε) : Nat → M σ ε (Option Unit)
  | 0 => fun _ => .error .diverges
  | f + 1 => do
    match toMerge (← get).pending with
    | none => pure (some ())
    | some third =>
      match ← mergeAt h third with
      | none => pure none
      | some _ => collapse h f

/-- `mergeForceCollapse` (173-182). -/
def forceCollapse (h : Host σ ε) : Nat → M σ ε (Option Unit)
  | 0 => fun _ => .error .diverges
  | f + 1 => do
    match (← get).pending with
    | c :: _ :: a :: _ =>
      match ← mergeAt h (a.len < c.len) with
      | none => pure none
      | some _ => forceCollapse h f
    | [_, _] =>
      match ← mergeAt h false with
      | none => pure none
      | some _ => forceCollapse h f
    | _ => pure (some ())

/-- The body of the main loop (650-662): find a run, extend it, push it, merge. -/
def nextRun (h : Host σ ε) (minrun lo nrem : Int) : M σ ε (Option Int) := do
  match ← countRun h lo nrem with
  | none => pure none
  | some n =>
    let force := if nrem ≤ minrun then nrem else minrun
    let ext ← if n < minrun then binarySort h lo force n else pure (some ())
    match ext with
    | none => pure none
    | some _ =>
      let n := if n < minrun then force else n
      modify fun s => { s with pending := { base := lo, len := n, power := none } :: s.pending }
      match ← collapse h ((← get).pending.length + 1) with
      | none => pure none
      | some _ => pure (some n)

/-- The main loop (649-664). -/
def runLoop (h : Host σ ε) (minrun : Int) : Nat → Int → Int → M σ ε (Option Unit)
  | 0, _, _ => fun _ => .error .diverges
  | f + 1, lo, nrem => do
    match ← nextRun h minrun lo nrem with
    | none => pure none
    | some n => if nrem - n = 0 then pure (some ()) else runLoop h minrun f (lo + n) (nrem - n)

/-- `sort` (630-670) on `n` elements. -/
def sortM (h : Host σ ε) (n : Int) : M σ ε (Option Unit) := do
  if n < 2 then pure (some ())
  else if n < 32 then do
    match ← countRun h 0 n with
    | none => pure none
    | some k => binarySort h 0 n k
  else do
    match ← runLoop h (minrun n.toNat) (n.toNat + 1) 0 n with
    | none => pure none
    | some _ =>
      match ← forceCollapse h ((← get).pending.length + 1) with
      | none => pure none
      | some _ =>
        match (← get).pending with
        | [_] => pure (some ())
        | _ => fun _ => .error .assertion

/-- `gfx::timsort(begin, end, comp)` on the elements `l`: the elements afterwards and whether `minGallop` overflowed.
(TimSort.h 728-750.) -/
def timsort (lt : ε → ε → Bool) (l : List ε) : Except Fault (List ε × Bool) :=
  match sortM (pureHost lt) l.length { env := (), mem := l, minGallop := 7, alloced := 0, pending := [], err := none } with
  | .ok (_, s) => .ok (s.mem, decide (s.alloced ≠ 0))
  | .error e => .error e

end Verif.Gfx
