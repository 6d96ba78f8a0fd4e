import Verif.Model.Base

/-!
# Alignment condition of the 64-byte-aligned block copy
-/

namespace Verif

/-- No vector store of the aligned copy hits a misaligned address: with `fa` a multiple of 64, the
store blocks are 64-, 32- and 16-byte ones at `ta` plus a multiple of the block size. -/
def CopyAligned (cfg : Cfg) (sz ta count : Nat) : Prop :=
  (cfg.avx512 = true → 64 / sz ≤ count → ta % 64 = 0) ∧
  (cfg.avx2 = true → 32 / sz ≤ (if cfg.avx512 then count % (64 / sz) else count) → ta % 32 = 0) ∧
  (cfg.sse41 = true → 16 / sz ≤ (if cfg.avx2 then count % (32 / sz)
    else if cfg.avx512 then count % (64 / sz) else count) → ta % 16 = 0)

instance (cfg : Cfg) (sz ta count : Nat) : Decidable (CopyAligned cfg sz ta count) := by
  unfold CopyAligned; infer_instance

end Verif
