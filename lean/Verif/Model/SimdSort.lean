import Verif.Model.GfxSort
import Verif.Model.IntArrayList

/-!
# `sort()` without a key: `simdsort` of utils/simd/BitonicSort.cpp

Line numbers are those of BitonicSort.cpp (the `int` version; the `long long` version 566-672 with 190-253, 313-373 is
the same text with other block sizes and the same 32-bit vector instructions). x86-64 only. The storage of a list and
the temporary one are 64-byte aligned (AlignedAllocator), so that the byte offset of an element decides whether an
aligned vector access faults. Prefetches are hints. `std::sort` is trusted to sort; on integers that determines its
result. The interpreter lock is released during the sort: nobody else uses the list here.
-/

namespace Verif.SimdSort

/-- `_mm*_min_epi32` / `_mm*_max_epi32` on one lane. -/
def pick (rev : Bool) (a b : Int) : Int := if rev then max a b else min a b

/-- Low and high 32-bit lane of a `long long`. -/
def lo32 (v : Int) : Int := wrapS 32 v

/-- See `lo32`. -/
def hi32 (v : Int) : Int := wrapS 32 (v / 2 ^ 32)

/-- The `long long` with these lanes. (BitonicSort.cpp 190-253, 313-373.) -/
def join32 (lo hi : Int) : Int := hi * 2 ^ 32 + lo % 2 ^ 32

/-- 32-bit lanes of a vector register holding these elements. -/
def toLanes : Kind → List Int → List Int
  | .i32, l => l
  | .i64, l => l.flatMap fun v => [lo32 v, hi32 v]

/-- Elements of a vector register with these `long long` lanes. (BitonicSort.cpp 190-253, 313-373.) -/
def join64 : List Int → List Int
  | lo :: hi :: rest => join32 lo hi :: join64 rest
  | _ => []

/-- Elements of a vector register with these lanes. (BitonicSort.cpp 131-172.) -/
def fromLanes : Kind → List Int → List Int
  | .i32, l => l
  | .i64, l => join64 l

/-- Lane-wise minimum or maximum of two elements. (`_mm*_min_epi32`, `_mm*_max_epi32` at BitonicSort.cpp 131-373.) -/
def pickElem : Kind → Bool → Int → Int → Int
  | .i32, rev, a, b => pick rev a b
  | .i64, rev, a, b => join32 (pick rev (lo32 a) (lo32 b)) (pick rev (hi32 a) (hi32 b))

/-- `AVX2_MARKS` (26-31), lane 0 first. -/
def marks8 : List (List Nat) :=
  [[0, 1, 2, 3, 4, 5, 6, 7], [1, 0, 3, 2, 5, 4, 7, 6], [2, 3, 0, 1, 6, 7, 4, 5], [4, 5, 6, 7, 0, 1, 2, 3]]

/-- `AVX512_MARKS` (32-37), lane 0 first. -/
def marks16 : List (List Nat) :=
  [[0, 1, 2, 3, 4, 5, 6, 7, 8, 9, 10, 11, 12, 13, 14, 15], [1, 0, 3, 2, 5, 4, 7, 6, 9, 8, 11, 10, 13, 12, 15, 14],
   [2, 3, 0, 1, 6, 7, 4, 5, 10, 11, 8, 9, 14, 15, 12, 13], [12, 13, 14, 15, 0, 1, 2, 3, 4, 5, 6, 7, 8, 9, 10, 11]]

/-- One permutation followed by minimum / maximum (61-62, 64-65, ...). -/
def exchange (rev : Bool) (vec : List Int) (mark : List Nat) : List Int :=
  List.zipWith (pick rev) vec (mark.map fun j => vec.getD j 0)

/-- `sort8Epi32AVX2` (60-72), `sort8Epi32AVX2Reversed` (77-89) with `marks8`, `sort16Epi32AVX512` (94-106),
`sort16Epi32AVX512Reversed` (111-123) with `marks16`. -/
def sortLanes (marks : List (List Nat)) (rev : Bool) (vec : List Int) : List Int := marks.foldl (exchange rev) vec

/-- The block loops (501-515, 521-534): `B` bytes per register, from element `c` on. With the number of elements
treated. -/
def blocks (K : Kind) (rev : Bool) (B : Nat) (marks : List (List Nat)) : Nat → List Int → Nat → Except UB (List Int × Nat)
  | 0, _, _ => .error .neverReturns
  | f + 1, data, c =>
    let W := B / K.size
    if c + W ≤ data.length then
      if c * K.size % B ≠ 0 then .error .misaligned
      else blocks K rev B marks f
        (writeAt data c (fromLanes K (sortLanes marks rev (toLanes K ((data.drop c).take W))))) (c + W)
    else .ok (data, c)

/-- `x - W + 1` on `size_t`. (BitonicSort.cpp, the bounds of the merge loops at 131-172.) -/
def back (x W : Nat) : Nat := (x + (2 ^ 64 - W) + 1) % 2 ^ 64

/-- Where a merge stands: `i`, `j`, `k` and the destination. (BitonicSort.cpp 124-188.) -/
structure Cursor where
  i : Nat
  j : Nat
  k : Nat
  dst : List Int
  deriving DecidableEq, Repr

/-- The vector loops of `doSingleMerge` (132-143, 148-159, 164-175) and `doSingleMergeReversed` (262-272, 275-285,
288-298): the former never advances `j`, the latter never advances `i`. -/
def wideLoop (K : Kind) (rev : Bool) (B mid right : Nat) (src : List Int) : Nat → Cursor → Except UB Cursor
  | 0, _ => .error .neverReturns
  | f + 1, s =>
    let W := B / K.size
    if s.i ≤ back mid W ∧ s.j ≤ back right W then
      if s.i * K.size % B ≠ 0 ∨ s.j * K.size % B ≠ 0 ∨ s.k * K.size % B ≠ 0 then .error .misaligned
      else if s.i + W ≤ src.length ∧ s.j + W ≤ src.length ∧ s.k + W ≤ s.dst.length then
        wideLoop K rev B mid right src f
          { i := if rev then s.i else s.i + W
            j := if rev then s.j + W else s.j
            k := s.k + W
            dst := writeAt s.dst s.k (List.zipWith (pickElem K rev) ((src.drop s.i).take W) ((src.drop s.j).take W)) }
      else .error .outOfBounds
    else .ok s

/-- `dst[k++] = src[p++]`. (BitonicSort.cpp 173-188.) -/
def put1 (src : List Int) (p : Nat) (s : Cursor) : Except UB (List Int) :=
  match src[p]? with
  | none => .error .outOfBounds
  | some v => if s.k < s.dst.length then .ok (s.dst.set s.k v) else .error .outOfBounds

/-- `<` or `>`: the comparison of the merges (180, 301), of `std::sort` and of the fallback. -/
def before (rev : Bool) (a b : Int) : Bool := if rev then decide (a > b) else decide (a < b)

/-- The three scalar loops (179-187 and twins); the second and third run when the first is over. -/
def scalarLoop (rev : Bool) (mid right : Nat) (src : List Int) : Nat → Cursor → Except UB (List Int)
  | 0, _ => .error .neverReturns
  | f + 1, s =>
    if s.i ≤ mid ∧ s.j ≤ right then
      match src[s.i]?, src[s.j]? with
      | some a, some b =>
        if before rev a b then do
          scalarLoop rev mid right src f { s with i := s.i + 1, k := s.k + 1, dst := ← put1 src s.i s }
        else do
          scalarLoop rev mid right src f { s with j := s.j + 1, k := s.k + 1, dst := ← put1 src s.j s }
      | _, _ => .error .outOfBounds
    else if s.i ≤ mid then do
      scalarLoop rev mid right src f { s with i := s.i + 1, k := s.k + 1, dst := ← put1 src s.i s }
    else if s.j ≤ right then do
      scalarLoop rev mid right src f { s with j := s.j + 1, k := s.k + 1, dst := ← put1 src s.j s }
    else .ok s.dst

/-- A vector loop if the CPU has the instructions (130, 146, 162). -/
def wide (on : Bool) (K : Kind) (rev : Bool) (B mid right : Nat) (src : List Int) (s : Cursor) : Except UB Cursor :=
  if on then wideLoop K rev B mid right src (src.length + 1) s else .ok s

/-- `doSingleMerge` (125-188), `doSingleMergeReversed` (255-311). -/
def singleMerge (cfg : Cfg) (K : Kind) (rev : Bool) (left mid right : Nat) (src dst : List Int) :
    Except UB (List Int) := do
  let s : Cursor := ⟨left, mid + 1, left, dst⟩
  let s ← wide cfg.avx512 K rev 64 mid right src s
  let s ← wide cfg.avx2 K rev 32 mid right src s
  let s ← wide cfg.sse41 K rev 16 mid right src s
  scalarLoop rev mid right src (2 * src.length + 1) s

/-- `for (; left < total; left += 2 * size)` (392-400). -/
def mergePass (cfg : Cfg) (K : Kind) (rev : Bool) (size : Nat) (src : List Int) : Nat → Nat → List Int → Except UB (List Int)
  | 0, _, _ => .error .neverReturns
  | f + 1, left, dst =>
    if left < src.length then do
      let dst ← singleMerge cfg K rev left (min (left + size - 1) (src.length - 1))
        (min (left + 2 * size - 1) (src.length - 1)) src dst
      mergePass cfg K rev size src f (left + 2 * size) dst
    else .ok dst

/-- `for (size_t size = blockSize; size < total; size *= 2)` (388-403), `data` and `temp` taking turns. -/
def mergeLoop (cfg : Cfg) (K : Kind) (rev : Bool) : Nat → Nat → Bool → List Int → List Int →
    Except UB (Bool × List Int × List Int)
  | 0, _, _, _, _ => .error .neverReturns
  | f + 1, size, cycle, data, temp =>
    if size < data.length then
      if cycle then do
        mergeLoop cfg K rev f (size * 2) (!cycle) data (← mergePass cfg K rev size data (data.length + 1) 0 temp)
      else do
        mergeLoop cfg K rev f (size * 2) (!cycle) (← mergePass cfg K rev size temp (temp.length + 1) 0 data) temp
    else .ok (cycle, data, temp)

/-- `mergeSortedBlocks` (379-408), `mergeSortedBlocksReversed` (413-443). -/
def mergeBlocks (cfg : Cfg) (K : Kind) (rev : Bool) (data : List Int) (blockSize : Nat) : Except UB (List Int) := do
  let (cycle, data, temp) ← mergeLoop cfg K rev (data.length + 1) blockSize true data (List.replicate data.length 0)
  if cycle then pure data else simdMemCpy cfg true K.size 0 0 temp data 0 temp.length

/-- `std::sort(begin, end)` / `std::sort(begin, end, std::greater<>())`: trusted to sort. (C++ library;
BitonicSort.cpp 462-496, 546-549.) -/
def stdSort (rev : Bool) (l : List Int) : List Int := l.mergeSort fun a b => !before rev b a

/-- `gfx::timsort(begin, end, comp)`. (BitonicSort.cpp 472-490, 585-603.) -/
def fallback (rev : Bool) (l : List Int) : Except UB (List Int) :=
  match Gfx.timsort (before rev) l with
  | .ok (out, false) => .ok out
  | .ok (_, true) => .error .signedOverflow
  | .error .diverges => .error .neverReturns
  | .error _ => .error .outOfBounds

/-- A vector sort stage (499-516, 518-536): runs only if more than one block is left. -/
def stage (on : Bool) (K : Kind) (rev : Bool) (B : Nat) (marks : List (List Nat)) (data : List Int) (c : Nat) :
    Except UB (List Int × Nat) :=
  if on && decide (c + B / K.size < data.length) then blocks K rev B marks (data.length + 1) data c else .ok (data, c)

/-- What is sorted before the merging starts (494-545), and the block size the merging starts with. -/
def staged (cfg : Cfg) (K : Kind) (rev : Bool) (l : List Int) : Except UB (List Int × Nat) := do
  let (data, c) ← stage cfg.avx512 K rev 64 marks16 l 0
  let block := if cfg.avx2 && decide (c + 32 / K.size < data.length) then 8 else 64 / K.size
  let (data, c) ← stage cfg.avx2 K rev 32 marks8 data c
  pure (if c < data.length then data.take c ++ stdSort rev (data.drop c) else data, block)

/-- `simdsort` (453-559; `long long`: 566-672). -/
def simdsort (cfg : Cfg) (K : Kind) (rev : Bool) (l : List Int) : Except UB (List Int) :=
  if l.length ≤ 1 then .ok l
  else if l.length < 8 then .ok (stdSort rev l)
  else if !cfg.avx2 && !cfg.avx512 then
    if l.length > 5000 then fallback rev l else .ok (stdSort rev l)
  else do
    let (data, block) ← staged cfg K rev l
    mergeBlocks cfg K rev data block

/-- `IntArrayList.sort(reverse=r)` (IntArrayList.cpp 450-468) and the same of BigIntArrayList (446-465): `r` is parsed
as a C int and compared with 1. -/
def sort (cfg : Cfg) (K : Kind) (l : List Int) (reverse : Int) : Out (List Int) Unit :=
  if FitsS 32 reverse then
    match simdsort cfg K (decide (reverse = 1)) l with
    | .ok l' => .ok l' ()
    | .error u => .ub u
  else .exc l .overflowError

end Verif.SimdSort
