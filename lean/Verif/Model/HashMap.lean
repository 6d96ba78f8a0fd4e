import Verif.Model.Base
import Verif.VocabMap

/-!
# The hash map of utils/include/UnorderedDense.h

`ankerl::unordered_dense::map<Key, T>` as used in ints/IntIntHashMap.cpp and unsafe/ASM.cpp: `detail::table` with
`bucket_type::standard` (418-424) and a `std::vector` of pairs. Line numbers are those of UnorderedDense.h. The hash
function is a parameter (`mixed_hash`, 873-887; its value is used modulo 2^64), keys are compared with `==`. Memory
for values and buckets is always available. C++ exceptions are `exc` outcomes (`std::exception` becomes RuntimeError in
IntIntHashMap.cpp 238-241).
-/

namespace Verif.HashMap

/-- `bucket_type::standard` (418-424): distance (upper 24 bits, counted from 1; 0 = empty) and fingerprint (low byte)
in one `uint32_t`, and the index into the values. -/
structure Bucket where
  df : Nat
  idx : Nat
  deriving DecidableEq, Repr

/-- A table (842-849). `m_num_buckets` is the length of `buckets`; `m_max_load_factor` is never changed. -/
structure Table (κ α : Type) where
  values : List (κ × α)
  buckets : List Bucket
  maxCap : Nat
  shifts : Nat
  deriving Repr

variable {κ α : Type} [DecidableEq κ]

/-- `next` (851-855). -/
def next (n i : Nat) : Nat := if i + 1 = n then 0 else i + 1

/-- `dist_inc` (863-865) on `uint32_t`. -/
def inc (x : Nat) : Nat := (x + 256) % 2 ^ 32

/-- `dist_dec` (867-869) on `uint32_t`. -/
def dec (x : Nat) : Nat := (x + (2 ^ 32 - 256)) % 2 ^ 32

/-- `dist_and_fingerprint_from_hash` (889-891); the two parts of the `|` have no common bits. -/
def fpOf (h : Nat) : Nat := 256 + h % 256

/-- `bucket_idx_from_hash` (893-895). -/
def idxOf (shifts h : Nat) : Nat := h % 2 ^ 64 / 2 ^ shifts % 2 ^ 32

/-- `at(m_buckets, i)` (858-860). -/
def rd (B : List Bucket) (i : Nat) : Except UB Bucket :=
  match B[i]? with
  | none => .error .outOfBounds
  | some b => .ok b

/-- `get_key(m_values[i])` (897-903). -/
def keyAt (vs : List (κ × α)) (i : Nat) : Except UB κ :=
  match vs[i]? with
  | none => .error .outOfBounds
  | some e => .ok e.1

/-- The loop of `next_while_less` (911-914). -/
def nextWhileLess (B : List Bucket) : Nat → Nat → Nat → Except UB (Nat × Nat)
  | 0, _, _ => .error .neverReturns
  | f + 1, df, i =>
    match rd B i with
    | .error u => .error u
    | .ok b => if df < b.df then nextWhileLess B f (inc df) (next B.length i) else .ok (df, i)

/-- `place_and_shift_up` (918-925). -/
def place : Nat → List Bucket → Bucket → Nat → Except UB (List Bucket)
  | 0, _, _, _ => .error .neverReturns
  | f + 1, B, b, i =>
    match rd B i with
    | .error u => .error u
    | .ok old =>
      if old.df ≠ 0 then place f (B.set i b) { old with df := inc old.df } (next B.length i) else .ok (B.set i b)

/-- `calc_num_buckets` (927-929), `max_bucket_count()` = 2^32 (1827-1829, 1358-1364). -/
def numBuckets (shifts : Nat) : Nat := min (2 ^ 32) (2 ^ (64 - shifts))

/-- `m_max_bucket_capacity` (974-979). 0.8F is 13421773 / 2^24; the product with a power of two is exact. -/
def capacity (n : Nat) : Nat := if n = 2 ^ 32 then 2 ^ 32 else n * 13421773 / 2 ^ 24

/-- `allocate_buckets_from_shift` (970-980) with `clear_buckets` (982-986). -/
def cleared (shifts : Nat) : List Bucket := List.replicate (numBuckets shifts) ⟨0, 0⟩

/-- The loop of `clear_and_fill_buckets_from_values` (990-997); `v` is `value_idx`. -/
def fill (hash : κ → Nat) (shifts : Nat) : List (κ × α) → Nat → List Bucket → Except UB (List Bucket)
  | [], _, B => .ok B
  | e :: rest, v, B =>
    match nextWhileLess B (B.length + 1) (fpOf (hash e.1)) (idxOf shifts (hash e.1)) with
    | .error u => .error u
    | .ok (df, i) =>
      match place (B.length + 1) B ⟨df, v⟩ i with
      | .error u => .error u
      | .ok B => fill hash shifts rest (v + 1) B

/-- `increase_size` (1000-1010). -/
def increaseSize (hash : κ → Nat) (t : Table κ α) : Out (Table κ α) Unit :=
  if t.maxCap = 2 ^ 32 then .exc { t with values := t.values.dropLast } .runtimeError
  else
    match fill hash (t.shifts - 1) t.values 0 (cleared (t.shifts - 1)) with
    | .error u => .ub u
    | .ok B => .ok ⟨t.values, B, capacity (numBuckets (t.shifts - 1)), t.shifts - 1⟩ ()

/-- The tail of `do_place_element` (1082-1090) and of `emplace` (1556-1565): the value is in `t` already. -/
def settle (hash : κ → Nat) (t : Table κ α) (df i : Nat) : Out (Table κ α) Nat :=
  if t.values.length > t.maxCap then
    match increaseSize hash t with
    | .ok t' _ => .ok t' (t.values.length - 1)
    | .exc t' e => .exc t' e
    | .pending t' _ e => .pending t' (t.values.length - 1) e
    | .ub u => .ub u
  else
    match place (t.buckets.length + 1) t.buckets ⟨df, t.values.length - 1⟩ i with
    | .error u => .ub u
    | .ok B => .ok { t with buckets := B } (t.values.length - 1)

/-- The loop of `do_try_emplace` (1099-1114): the index of the key's value, or where to put the key. -/
def tryLoop (vs : List (κ × α)) (B : List Bucket) (k : κ) : Nat → Nat → Nat → Except UB (Nat ⊕ (Nat × Nat))
  | 0, _, _ => .error .neverReturns
  | f + 1, df, i =>
    match rd B i with
    | .error u => .error u
    | .ok b =>
      if df = b.df then
        match keyAt vs b.idx with
        | .error u => .error u
        | .ok k' => if k = k' then .ok (.inl b.idx) else tryLoop vs B k f (inc df) (next B.length i)
      else if df > b.df then .ok (.inr (df, i))
      else tryLoop vs B k f (inc df) (next B.length i)

/-- `try_emplace(key, args...)` (1094-1115, 1573-1575): index of the value, and whether it is new. -/
def tryEmplace (hash : κ → Nat) (t : Table κ α) (k : κ) (v : α) : Out (Table κ α) (Nat × Bool) :=
  match tryLoop t.values t.buckets k (t.buckets.length + 1) (fpOf (hash k)) (idxOf t.shifts (hash k)) with
  | .error u => .ub u
  | .ok (.inl i) => .ok t (i, false)
  | .ok (.inr (df, i)) =>
    match settle hash { t with values := t.values ++ [(k, v)] } df i with
    | .ok t' j => .ok t' (j, true)
    | .exc t' e => .exc t' e
    | .pending t' j e => .pending t' (j, true) e
    | .ub u => .ub u

/-- The loop of `emplace` (1544-1553). -/
def emplaceLoop (vs : List (κ × α)) (B : List Bucket) (k : κ) : Nat → Nat → Nat → Except UB (Nat ⊕ (Nat × Nat))
  | 0, _, _ => .error .neverReturns
  | f + 1, df, i =>
    match rd B i with
    | .error u => .error u
    | .ok b =>
      if df ≤ b.df then
        if df = b.df then
          match keyAt vs b.idx with
          | .error u => .error u
          | .ok k' => if k = k' then .ok (.inl b.idx) else emplaceLoop vs B k f (inc df) (next B.length i)
        else emplaceLoop vs B k f (inc df) (next B.length i)
      else .ok (.inr (df, i))

/-- `emplace(key, value)` (1537-1566): the pair is appended first, and removed again if the key is there. -/
def emplace (hash : κ → Nat) (t : Table κ α) (k : κ) (v : α) : Out (Table κ α) (Nat × Bool) :=
  match emplaceLoop (t.values ++ [(k, v)]) t.buckets k (t.buckets.length + 1) (fpOf (hash k)) (idxOf t.shifts (hash k)) with
  | .error u => .ub u
  | .ok (.inl i) => .ok { t with values := (t.values ++ [(k, v)]).dropLast } (i, false)
  | .ok (.inr (df, i)) =>
    match settle hash { t with values := t.values ++ [(k, v)] } df i with
    | .ok t' j => .ok t' (j, true)
    | .exc t' e => .exc t' e
    | .pending t' j e => .pending t' (j, true) e
    | .ub u => .ub u

/-- The loop of `do_find` (1143-1154). -/
def findLoop (vs : List (κ × α)) (B : List Bucket) (k : κ) : Nat → Nat → Nat → Except UB (Option Nat)
  | 0, _, _ => .error .neverReturns
  | f + 1, df, i =>
    match rd B i with
    | .error u => .error u
    | .ok b =>
      if df = b.df then
        match keyAt vs b.idx with
        | .error u => .error u
        | .ok k' => if k = k' then .ok (some b.idx) else findLoop vs B k f (inc df) (next B.length i)
      else if df > b.df then .ok none
      else findLoop vs B k f (inc df) (next B.length i)

/-- One of the unrolled steps of `do_find` (1129-1134, 1136-1141): only a hit is looked for. -/
def findStep (vs : List (κ × α)) (B : List Bucket) (k : κ) (df i : Nat) (rest : Except UB (Option Nat)) :
    Except UB (Option Nat) :=
  match rd B i with
  | .error u => .error u
  | .ok b =>
    if df = b.df then
      match keyAt vs b.idx with
      | .error u => .error u
      | .ok k' => if k = k' then .ok (some b.idx) else rest
    else rest

/-- `find` (1118-1155): the index of the value; `none` is `end()`. -/
def find (hash : κ → Nat) (t : Table κ α) (k : κ) : Except UB (Option Nat) :=
  if t.values.isEmpty then .ok none
  else
    let n := t.buckets.length
    let df := fpOf (hash k)
    let i := idxOf t.shifts (hash k)
    findStep t.values t.buckets k df i
      (findStep t.values t.buckets k (inc df) (next n i)
        (findLoop t.values t.buckets k (n + 1) (inc (inc df)) (next n (next n i))))

/-- The loop of `do_erase` that moves buckets down (1017-1023). -/
def shiftDown : Nat → List Bucket → Nat → Except UB (List Bucket)
  | 0, _, _ => .error .neverReturns
  | f + 1, B, i =>
    match rd B (next B.length i) with
    | .error u => .error u
    | .ok b =>
      if b.df ≥ 256 * 2 then shiftDown f (B.set i { b with df := dec b.df }) (next B.length i)
      else .ok (B.set i ⟨0, 0⟩)

/-- The loop that looks for the bucket of the value `v` (1037-1039). -/
def scan (B : List Bucket) (v : Nat) : Nat → Nat → Except UB Nat
  | 0, _ => .error .neverReturns
  | f + 1, i =>
    match rd B i with
    | .error u => .error u
    | .ok b => if v ≠ b.idx then scan B v f (next B.length i) else .ok i

/-- `do_erase` (1013-1043). -/
def doErase (hash : κ → Nat) (t : Table κ α) (i : Nat) : Except UB (Table κ α) :=
  match rd t.buckets i with
  | .error u => .error u
  | .ok b =>
    match shiftDown (t.buckets.length + 1) t.buckets i with
    | .error u => .error u
    | .ok B =>
      if b.idx ≠ t.values.length - 1 then
        match t.values[t.values.length - 1]? with
        | none => .error .outOfBounds
        | some e =>
          if b.idx < t.values.length then
            match scan B (t.values.length - 1) (B.length + 1) (idxOf t.shifts (hash e.1)) with
            | .error u => .error u
            | .ok j =>
              match rd B j with
              | .error u => .error u
              | .ok b' => .ok { t with values := (t.values.set b.idx e).dropLast, buckets := B.set j { b' with idx := b.idx } }
          else .error .outOfBounds
      else .ok { t with values := t.values.dropLast, buckets := B }

/-- The second loop of `do_erase_key` (1053-1057). -/
def eraseLoop (vs : List (κ × α)) (B : List Bucket) (k : κ) : Nat → Nat → Nat → Except UB (Nat × Nat)
  | 0, _, _ => .error .neverReturns
  | f + 1, df, i =>
    match rd B i with
    | .error u => .error u
    | .ok b =>
      if df = b.df then
        match keyAt vs b.idx with
        | .error u => .error u
        | .ok k' => if k = k' then .ok (df, i) else eraseLoop vs B k f (inc df) (next B.length i)
      else .ok (df, i)

/-- `erase(key)` (1680-1683, 1046-1064): the number of erased entries. -/
def erase (hash : κ → Nat) (t : Table κ α) (k : κ) : Out (Table κ α) Nat :=
  if t.values.isEmpty then .ok t 0
  else
    match nextWhileLess t.buckets (t.buckets.length + 1) (fpOf (hash k)) (idxOf t.shifts (hash k)) with
    | .error u => .ub u
    | .ok (df, i) =>
      match eraseLoop t.values t.buckets k (t.buckets.length + 1) df i with
      | .error u => .ub u
      | .ok (df, i) =>
        match rd t.buckets i with
        | .error u => .ub u
        | .ok b =>
          if df ≠ b.df then .ok t 0
          else
            match doErase hash t i with
            | .error u => .ub u
            | .ok t' => .ok t' 1

/-- `table()` (1176-1189): `initial_shifts` is 62 (813). -/
def empty : Table κ α := ⟨[], cleared 62, capacity (numBuckets 62), 62⟩

/-- `clear()` (1368-1371). -/
def clear (t : Table κ α) : Table κ α :=
  { t with values := [], buckets := List.replicate t.buckets.length ⟨0, 0⟩ }

/-- `operator=(table const&)` and the copy constructor (1217-1223, 1263-1274, 940-951). -/
def copy (t : Table κ α) : Table κ α :=
  if t.values.isEmpty then ⟨[], cleared 62, capacity (numBuckets 62), 62⟩
  else ⟨t.values, t.buckets, capacity (numBuckets t.shifts), t.shifts⟩

/-- `map[key] = value` (1745-1747): the default value is inserted first, then assigned. -/
def assign (hash : κ → Nat) (dflt : α) (t : Table κ α) (k : κ) (v : α) : Out (Table κ α) Unit :=
  match tryEmplace hash t k dflt with
  | .ok t' (i, _) =>
    if i < t'.values.length then .ok { t' with values := t'.values.modify i fun e => (e.1, v) } () else .ub .outOfBounds
  | .exc t' e => .exc t' e
  | .pending t' _ e => .pending t' () e
  | .ub u => .ub u

/-- `map.at(key)` (1163-1168): an absent key throws. -/
def lookup (hash : κ → Nat) (t : Table κ α) (k : κ) : Out (Table κ α) α :=
  match find hash t k with
  | .error u => .ub u
  | .ok none => .exc t .runtimeError
  | .ok (some i) =>
    match t.values[i]? with
    | none => .ub .outOfBounds
    | some e => .ok t e.2

/-- `wyhash::mix` (195-198) with `mum` (166-171). -/
def mix (a b : Nat) : Nat := (a * b % 2 ^ 64) ^^^ (a * b / 2 ^ 64 % 2 ^ 64)

/-- `mixed_hash` of an `int` key (379-385, 405, 266-268): sign extended and mixed. -/
def hashInt (k : Int) : Nat := mix (k % 2 ^ 64).toNat 0x9E3779B97F4A7C15

/-- `contains` is 1787-1789, `size` 1354-1356; `copy` goes on with the copy. -/
def step (hash : κ → Nat) (dflt : α) (t : Table κ α) : MapOp κ α → Out (Table κ α) (MapAns α)
  | .emplace k v =>
    match emplace hash t k v with
    | .ok t (_, b) => .ok t (.bool b)
    | .exc t e => .exc t e
    | .pending t _ e => .pending t .none e
    | .ub u => .ub u
  | .tryEmplace k v =>
    match tryEmplace hash t k v with
    | .ok t (_, b) => .ok t (.bool b)
    | .exc t e => .exc t e
    | .pending t _ e => .pending t .none e
    | .ub u => .ub u
  | .assign k v =>
    match assign hash dflt t k v with
    | .ok t _ => .ok t .none
    | .exc t e => .exc t e
    | .pending t _ e => .pending t .none e
    | .ub u => .ub u
  | .at k =>
    match lookup hash t k with
    | .ok t v => .ok t (.val v)
    | .exc t e => .exc t e
    | .pending t _ e => .pending t .none e
    | .ub u => .ub u
  | .contains k =>
    match find hash t k with
    | .error u => .ub u
    | .ok r => .ok t (.bool r.isSome)
  | .erase k =>
    match erase hash t k with
    | .ok t n => .ok t (.num n)
    | .exc t e => .exc t e
    | .pending t _ e => .pending t .none e
    | .ub u => .ub u
  | .size => .ok t (.num t.values.length)
  | .clear => .ok (clear t) .none
  | .copy => .ok (copy t) .none

/-- A history: the answers, an exception being an answer too. Scaffolding of the model, no code of /repo. -/
def run (hash : κ → Nat) (dflt : α) : Table κ α → List (MapOp κ α) → Except UB (Table κ α × List (Except Exc (MapAns α)))
  | t, [] => .ok (t, [])
  | t, op :: ops =>
    match step hash dflt t op with
    | .ub u => .error u
    | .ok t' a => (run hash dflt t' ops).map fun r => (r.1, .ok a :: r.2)
    | .exc t' e => (run hash dflt t' ops).map fun r => (r.1, .error e :: r.2)
    | .pending t' _ e => (run hash dflt t' ops).map fun r => (r.1, .error e :: r.2)

end Verif.HashMap
