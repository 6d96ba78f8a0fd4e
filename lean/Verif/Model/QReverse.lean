import Verif.Model.Base

/-!
# Element reversal (`qReverse`)

Model of utils/include/qreverse.hpp at byte level. Memory is a function from byte offsets (relative to
`Array`) to bytes; a register is a function from byte lanes to bytes. Every intrinsic used by the file
is modelled by the source-byte index it reads for each destination byte. The x86 branches are
modelled; the ARM NEON branches are not. Unaligned 16/32/64-bit accesses (lines 323-378) are taken to
work, as they do on x86.
-/

namespace Verif

/-- Memory: a function from byte offsets. Scaffolding of the model, no code of /repo. -/
abbrev Bytes (α : Type) := Nat → α

/-! ## Intrinsics as byte-index maps -/

/-- Little-endian bytes of a `w`-byte word. Scaffolding of the model, no code of /repo. -/
def wordBytes (w x : Nat) : List Nat := (List.range w).map fun b => x / 256 ^ b % 256

/-- `_mm*_set_epi*`: the first argument is the highest lane; result as the byte list of the register. (Intrinsic;
qreverse.hpp 187, 195, 232, 268, 405, 445, 480, 564, 707, 850.) -/
def setEpi (w : Nat) (args : List Nat) : List Nat := args.reverse.flatMap (wordBytes w)

/-- `_mm_shuffle_epi8`, `_mm256_shuffle_epi8`, `_mm512_shuffle_epi8` with a control whose top bits are
clear: byte `k` reads byte `ctrl[k] & 15` of its own 128-bit lane. -/
def idxShuffleEpi8 (ctrl : List Nat) (k : Nat) : Nat := 16 * (k / 16) + ctrl.getD k 0 % 16

/-- `_mm_shuffle_epi32`, `_mm256_shuffle_epi32`: dword `q` of each 128-bit lane reads dword
`(imm >> 2q) & 3` of the lane. -/
def idxShuffleEpi32 (imm k : Nat) : Nat :=
  16 * (k / 16) + 4 * (imm / 4 ^ (k % 16 / 4) % 4) + k % 4

/-- `_mm_alignr_epi8(a, a, 8)`, `_mm256_alignr_epi8(a, a, 8)`: each 128-bit lane rotated by 8 bytes. -/
def idxAlignr8 (k : Nat) : Nat := 16 * (k / 16) + (k % 16 + 8) % 16

/-- `_mm256_permute2x128_si256(a, a, 1)`: the two 128-bit lanes exchanged. -/
def idxPermute2x128 (k : Nat) : Nat := (k + 16) % 32

/-- `_mm256_permute4x64_epi64(a, imm)`: qword `q` reads qword `(imm >> 2q) & 3`. -/
def idxPermute4x64 (imm k : Nat) : Nat := 8 * (imm / 4 ^ (k / 8) % 4) + k % 8

/-- `_mm512_permutexvar_epi{16,32,64}(idx, a)`: lane `q` of `w` bytes reads lane `idx[q]` (modulo the
number of lanes); `idx` given as the byte list of the index register. -/
def idxPermutexvar (w : Nat) (idx : List Nat) (k : Nat) : Nat :=
  w * (idx.getD (k / w * w) 0 % (64 / w)) + k % w

/-- `_MM_SHUFFLE(z, y, x, w)`. (Macro; qreverse.hpp 605, 606, 636, 637, 891, 892.) -/
def mmShuffle (z y x w : Nat) : Nat := z * 64 + y * 16 + x * 4 + w

/-- Apply a byte-index map to a register. Scaffolding of the model, no code of /repo. -/
def permReg (idx : Nat → Nat) (r : Bytes α) : Bytes α := fun k => r (idx k)

/-! ## Loops -/

/-- Body of every vector loop: load `W` elements at `i` and at `Count - i - W`, permute both registers,
store them exchanged. `none` if an accessed range leaves the array. (qreverse.hpp 184-310 for one byte, and the loops
of the other sizes.) -/
def swapBlocks (sz W count : Nat) (perm : Bytes α → Bytes α) (i : Nat) (m : Bytes α) :
    Option (Bytes α) :=
  if i + W ≤ count then
    let lo := i * sz
    let hi := (count - i - W) * sz
    let lower : Bytes α := perm fun k => m (lo + k)
    let upper : Bytes α := perm fun k => m (hi + k)
    let m1 : Bytes α := fun p => if lo ≤ p ∧ p < lo + W * sz then upper (p - lo) else m p
    some fun p => if hi ≤ p ∧ p < hi + W * sz then lower (p - hi) else m1 p
  else none

/-- `n` further iterations of such a loop from element `i` (each ends with `i += W`). (qreverse.hpp 184-310 for one
byte, and the loops of the other sizes.) -/
def swapIter (sz W count : Nat) (perm : Bytes α → Bytes α) : Nat → Nat → Bytes α → Option (Nat × Bytes α)
  | 0, i, m => some (i, m)
  | n + 1, i, m =>
    match swapBlocks sz W count perm i m with
    | none => none
    | some m' => swapIter sz W count perm n (i + W) m'

/-- `for (j = i / W; j < (Count / 2) / W; ++j) { …; i += W; }`, executed only if `on`. (qreverse.hpp 184-310 for one
byte, and the loops of the other sizes.) -/
def swapLoop (on : Bool) (sz W count : Nat) (perm : Bytes α → Bytes α) (st : Nat × Bytes α) :
    Option (Nat × Bytes α) :=
  if on then swapIter sz W count perm (count / 2 / W - st.1 / W) st.1 st.2 else some st

/-- The closing scalar loop `for (; i < Count / 2; ++i)` exchanging single elements
(qreverse.hpp 166-173, 383-390, 543-551, 686-694, 826-834, 909-917). -/
def naiveLoop (sz count : Nat) (st : Nat × Bytes α) : Option (Bytes α) :=
  (swapIter sz 1 count id (count / 2 - st.1) st.1 st.2).map (·.2)

/-! ## The template instances -/

/-- qreverse.hpp 152-174, generic element size. -/
def qReverseGeneric (sz count : Nat) (m : Bytes α) : Option (Bytes α) := naiveLoop sz count (0, m)

/-- qreverse.hpp 187-230: `_mm512_shuffle_epi8` then `_mm512_permutexvar_epi64`. -/
def perm512x1 (r : Bytes α) : Bytes α :=
  let rev8 := setEpi 4 [0x00010203, 0x4050607, 0x8090a0b, 0xc0d0e0f, 0x00010203, 0x4050607, 0x8090a0b,
    0xc0d0e0f, 0x00010203, 0x4050607, 0x8090a0b, 0xc0d0e0f, 0x00010203, 0x4050607, 0x8090a0b, 0xc0d0e0f]
  let rev64 := setEpi 8 [1, 0, 3, 2, 5, 4, 7, 6]
  permReg (idxPermutexvar 8 rev64) (permReg (idxShuffleEpi8 rev8) r)

/-- qreverse.hpp 235-266: `_mm256_shuffle_epi8` then `_mm256_permute2x128_si256`. -/
def perm256x1 (r : Bytes α) : Bytes α :=
  let rev := setEpi 1 [0, 1, 2, 3, 4, 5, 6, 7, 8, 9, 10, 11, 12, 13, 14, 15,
    0, 1, 2, 3, 4, 5, 6, 7, 8, 9, 10, 11, 12, 13, 14, 15]
  permReg idxPermute2x128 (permReg (idxShuffleEpi8 rev) r)

/-- qreverse.hpp 271-300: `_mm_shuffle_epi8`. -/
def perm128x1 (r : Bytes α) : Bytes α :=
  permReg (idxShuffleEpi8 (setEpi 1 [0, 1, 2, 3, 4, 5, 6, 7, 8, 9, 10, 11, 12, 13, 14, 15])) r

/-- `Swap64` / `Swap32` / `Swap16` (`__builtin_bswap*`), on `w` bytes. -/
def bswap (w : Nat) (r : Bytes α) : Bytes α := permReg (fun k => w - 1 - k) r

/-- qreverse.hpp 178-392, one-byte elements. -/
def qReverse1 (cfg : Cfg) (count : Nat) (m : Bytes α) : Option (Bytes α) := do
  let s ← swapLoop cfg.avx512 1 64 count perm512x1 (0, m)
  let s ← swapLoop cfg.avx2 1 32 count perm256x1 s
  let s ← swapLoop cfg.ssse3 1 16 count perm128x1 s
  let s ← swapLoop true 1 8 count (bswap 8) s
  let s ← swapLoop true 1 4 count (bswap 4) s
  let s ← swapLoop true 1 2 count (bswap 2) s
  naiveLoop 1 count s

/-- qreverse.hpp 405-440: `_mm512_permutexvar_epi16`. -/
def perm512x2 (r : Bytes α) : Bytes α :=
  permReg (idxPermutexvar 2 (setEpi 8 [0x00000100020003, 0x04000500060007, 0x080009000a000b,
    0x0c000d000e000f, 0x10001100120013, 0x14001500160017, 0x180019001a001b, 0x1c001d001e001f])) r

/-- qreverse.hpp 445-475. -/
def perm256x2 (r : Bytes α) : Bytes α :=
  permReg idxPermute2x128 (permReg (idxShuffleEpi8 (setEpi 1
    [1, 0, 3, 2, 5, 4, 7, 6, 9, 8, 11, 10, 13, 12, 15, 14,
     1, 0, 3, 2, 5, 4, 7, 6, 9, 8, 11, 10, 13, 12, 15, 14])) r)

/-- qreverse.hpp 480-507. -/
def perm128x2 (r : Bytes α) : Bytes α :=
  permReg (idxShuffleEpi8 (setEpi 1 [1, 0, 3, 2, 5, 4, 7, 6, 9, 8, 11, 10, 13, 12, 15, 14])) r

/-- qreverse.hpp 397-552, two-byte elements. -/
def qReverse2 (cfg : Cfg) (count : Nat) (m : Bytes α) : Option (Bytes α) := do
  let s ← swapLoop cfg.avx512 2 32 count perm512x2 (0, m)
  let s ← swapLoop cfg.avx2 2 16 count perm256x2 s
  let s ← swapLoop cfg.ssse3 2 8 count perm128x2 s
  naiveLoop 2 count s

/-- qreverse.hpp 564-596: `_mm512_permutexvar_epi32`. -/
def perm512x4 (r : Bytes α) : Bytes α :=
  permReg (idxPermutexvar 4 (setEpi 4 [0, 1, 2, 3, 4, 5, 6, 7, 8, 9, 10, 11, 12, 13, 14, 15])) r

/-- qreverse.hpp 601-626: `_mm256_shuffle_epi32` then `_mm256_permute2x128_si256`. -/
def perm256x4 (r : Bytes α) : Bytes α :=
  permReg idxPermute2x128 (permReg (idxShuffleEpi32 (mmShuffle 0 1 2 3)) r)

/-- qreverse.hpp 631-653. -/
def perm128x4 (r : Bytes α) : Bytes α := permReg (idxShuffleEpi32 (mmShuffle 0 1 2 3)) r

/-- qreverse.hpp 556-695, four-byte elements. -/
def qReverse4 (cfg : Cfg) (count : Nat) (m : Bytes α) : Option (Bytes α) := do
  let s ← swapLoop cfg.avx512 4 16 count perm512x4 (0, m)
  let s ← swapLoop cfg.avx2 4 8 count perm256x4 s
  let s ← swapLoop cfg.ssse3 4 4 count perm128x4 s
  naiveLoop 4 count s

/-- qreverse.hpp 707-739. -/
def perm512x8 (r : Bytes α) : Bytes α :=
  permReg (idxPermutexvar 8 (setEpi 8 [0, 1, 2, 3, 4, 5, 6, 7])) r

/-- qreverse.hpp 744-769: `_mm256_alignr_epi8` then `_mm256_permute2x128_si256`. -/
def perm256x8 (r : Bytes α) : Bytes α := permReg idxPermute2x128 (permReg idxAlignr8 r)

/-- qreverse.hpp 774-796. -/
def perm128x8 (r : Bytes α) : Bytes α := permReg idxAlignr8 r

/-- qreverse.hpp 699-835, eight-byte elements. -/
def qReverse8 (cfg : Cfg) (count : Nat) (m : Bytes α) : Option (Bytes α) := do
  let s ← swapLoop cfg.avx512 8 8 count perm512x8 (0, m)
  let s ← swapLoop cfg.avx2 8 4 count perm256x8 s
  let s ← swapLoop cfg.ssse3 8 2 count perm128x8 s
  naiveLoop 8 count s

/-- qreverse.hpp 849-879. -/
def perm512x16 (r : Bytes α) : Bytes α :=
  permReg (idxPermutexvar 8 (setEpi 8 [1, 0, 3, 2, 5, 4, 7, 6])) r

/-- qreverse.hpp 882-906: `_mm256_permute4x64_epi64(…, _MM_SHUFFLE(0, 1, 2, 3))`. -/
def perm256x16 (r : Bytes α) : Bytes α := permReg (idxPermute4x64 (mmShuffle 0 1 2 3)) r

/-- qreverse.hpp 839-918, sixteen-byte elements. -/
def qReverse16 (cfg : Cfg) (count : Nat) (m : Bytes α) : Option (Bytes α) := do
  let s ← swapLoop cfg.avx512 16 4 count perm512x16 (0, m)
  let s ← swapLoop cfg.avx2 16 2 count perm256x16 s
  naiveLoop 16 count s

/-- `simdReverse<T>` (utils/simd/SIMDUtils.h 173-176) dispatches on `sizeof(T)`. -/
def qReverse (cfg : Cfg) (sz count : Nat) (m : Bytes α) : Option (Bytes α) :=
  match sz with
  | 1 => qReverse1 cfg count m
  | 2 => qReverse2 cfg count m
  | 4 => qReverse4 cfg count m
  | 8 => qReverse8 cfg count m
  | 16 => qReverse16 cfg count m
  | sz => qReverseGeneric sz count m

end Verif
