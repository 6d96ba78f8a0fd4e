import Verif.Model.Base

/-!
# Block-wise memory copy

Model of `simdMemCpy` / `simdMemCpyAligned` (utils/simd/SIMDUtils.h 33-93, 104-164) and
`fast_memcpy` (utils/memory/FastMemcpy.h). Source and destination are separate blocks of elements
(the parameters are `__restrict`), each with the byte address of its first element. Prefetches are
hints and have no effect.
-/

namespace Verif

/-- Overwrite `xs.length` elements of `dst` from position `pos`. Scaffolding of the model, no code of /repo. -/
def writeAt (dst : List α) (pos : Nat) (xs : List α) : List α :=
  dst.take pos ++ xs ++ dst.drop (pos + xs.length)

/-- One vector load + store of `W` elements: `vec = load(from + c); store(to + c, vec)`
(SIMDUtils.h 58-59, 70-71, 82-83 unaligned; 129-130, 141-142, 153-154 aligned). `B` is the register
width in bytes, `sz` the element size, `fa`/`ta` the byte addresses of `from` and `to`;
`to` is element `off` of `dst`. -/
def blockMove (aligned : Bool) (B sz fa ta : Nat) (src dst : List α) (off W c : Nat) :
    Except UB (List α) :=
  if aligned && ((fa + c * sz) % B != 0 || (ta + c * sz) % B != 0) then .error .misaligned
  else if c + W ≤ src.length ∧ off + c + W ≤ dst.length then
    .ok (writeAt dst (off + c) ((src.drop c).take W))
  else .error .outOfBounds

/-- `for (; count - copied >= W; copied += W) { block move }` (SIMDUtils.h 53-60, 65-72, 77-84 and the
aligned twins). Returns the destination and `copied`. -/
def blockLoop (aligned : Bool) (B sz fa ta : Nat) (src : List α) (off count W : Nat)
    (dst : List α) (c : Nat) : Except UB (List α × Nat) :=
  if _h : W ≤ count - c ∧ 0 < W then
    match blockMove aligned B sz fa ta src dst off W c with
    | .error u => .error u
    | .ok dst' => blockLoop aligned B sz fa ta src off count W dst' (c + W)
  else .ok (dst, c)
termination_by count - c
decreasing_by omega

/-- `while (copied < count) { to[copied] = from[copied]; ++copied; }` (SIMDUtils.h 88-91, 159-162). -/
def scalarTail (src : List α) (off count : Nat) (dst : List α) (c : Nat) : Except UB (List α) :=
  if _h : c < count then
    if c < src.length ∧ off + c < dst.length then
      scalarTail src off count (writeAt dst (off + c) ((src.drop c).take 1)) (c + 1)
    else .error .outOfBounds
  else .ok dst
termination_by count - c
decreasing_by omega

/-- `memcpy(to, from, count * sizeof(T))` on separate blocks. (C library; SIMDUtils.h 33-93, 104-164 for the
remainder.) -/
def memcpyElems (src dst : List α) (off count : Nat) : Except UB (List α) :=
  if count ≤ src.length ∧ off + count ≤ dst.length then .ok (writeAt dst off (src.take count))
  else .error .outOfBounds

/-- One stage `if (FLAG && count - copied >= W) for (…)` with `W = B / sizeof(T)`
(SIMDUtils.h 52-61, 64-73, 76-85 and the aligned twins). -/
def copyStage (on aligned : Bool) (B sz fa ta : Nat) (src : List α) (off count : Nat)
    (st : List α × Nat) : Except UB (List α × Nat) :=
  if on then blockLoop aligned B sz fa ta src off count (B / sz) st.1 st.2 else .ok st

/-- SIMDUtils.h 38-40 / 109-111: plain `memcpy` when there is no SIMD or `count < 8`. -/
def copyHead (cfg : Cfg) (src dst : List α) (off count : Nat) : Except UB (List α) :=
  if (!cfg.avx512 && !cfg.avx2 && !cfg.sse41) || decide (count < 8)
  then memcpyElems src dst off count else .ok dst

/-- SIMDUtils.h 33-93 (`aligned = false`) and 104-164 (`aligned = true`). Lines 38-40: the `memcpy`
for short counts has no `return`, the block loops run afterwards all the same. Block sizes are
`AVX512_BLOCK_SIZE / sizeof(T)` etc. with 64, 32 and 16 bytes (SIMDHelper.h). -/
def simdMemCpy (cfg : Cfg) (aligned : Bool) (sz fa ta : Nat) (src dst : List α) (off count : Nat) :
    Except UB (List α) := do
  let dst ← copyHead cfg src dst off count
  let st ← copyStage cfg.avx512 aligned 64 sz fa ta src off count (dst, 0)
  let st ← copyStage cfg.avx2 aligned 32 sz fa ta src off count st
  let st ← copyStage cfg.sse41 aligned 16 sz fa ta src off count st
  scalarTail src off count st.1 st.2

/-- utils/memory/FastMemcpy.h `fast_memcpy(dst, src, n)`: sizes 0..32 by `memcpy`, larger ones by the
aligned copy when both addresses are multiples of 64, else by the unaligned one (element = byte). -/
def fastMemcpy (cfg : Cfg) (fa ta : Nat) (src dst : List α) (off n : Nat) : Except UB (List α) :=
  if n ≤ 32 then memcpyElems src dst off n
  else if fa % 64 = 0 ∧ ta % 64 = 0 then simdMemCpy cfg true 1 fa ta src dst off n
  else simdMemCpy cfg false 1 fa ta src dst off n

end Verif
