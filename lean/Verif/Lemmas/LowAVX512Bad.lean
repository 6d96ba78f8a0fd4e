import Verif.Lemmas.LowAVX512

/-!
# Calls of the AVX-512 bindings that do not do what is documented
-/

namespace Verif.LowAVX512

open Spec.Low

theorem implFor_call {s : Stub} (hr : s.raises = false) (hn : needsConst s = false) :
    implFor s = .call (s.params.length + first s.ret) (declsFor s.params (first s.ret)) s.proto
      (slots s.params (first s.ret)) s.ret := by
  unfold implFor
  rw [hr, hn, cond_false, cond_false]

theorem hints_length {s : Stub} (hs : s ∈ stubs) : s.hints.length = s.params.length + first s.ret := by
  obtain ⟨_, _, _, _, _, h⟩ := row rows_ok hs
  rw [h]
  unfold hintsFor
  cases s.ret <;> simp [first]

/-- Types of parameters of supported methods. -/
def known (t : CTy) : Bool := boxed t || signed t || unsigned t || floating t || t == .ptr

set_option maxRecDepth 20000 in
theorem known_params : stubs.all (fun s => s.raises || needsConst s || s.params.all known) = true := by decide +kernel

theorem params_known {s : Stub} (hs : s ∈ stubs) (hr : s.raises = false) (hn : needsConst s = false) :
    ∀ t ∈ s.params, known t = true := by
  have := List.all_eq_true.1 known_params s hs
  rw [hr, hn, Bool.false_or, Bool.false_or] at this
  exact List.all_eq_true.1 this

/-! ## Arguments that are converted wrongly -/

/-- A memory with 64 zero bytes at address 64. -/
def mem0 : Mem := ⟨[(64, 64)], fun _ => 0⟩

/-- An argument for each type, wrongly converted where that is possible. -/
def arg0 (py : PyVer) (t : CTy) : LArg :=
  if boxed t then .obj (.int 64)
  else match t with
    | .ptr => .obj (.int 64)
    | .float | .double => .float []
    | .int => .obj (.int (if py = .le311 then 1073741824 else 0))
    | .char | .short => .obj (.int (if py = .le311 then 0 else -1))
    | _ => .obj (.int 0)

/-- Its documented value. -/
def doc0 (f32 : List Byte → List Byte) (py : PyVer) (t : CTy) : List Byte :=
  if boxed t then bytesAt mem0 64 t.size
  else match t with
    | .ptr => SimdSet.laneBytes 8 64
    | .float => f32 []
    | .double => []
    | .int => SimdSet.laneBytes 4 (if py = .le311 then 1073741824 else 0)
    | .char => SimdSet.laneBytes 1 (if py = .le311 then 0 else -1)
    | .short => SimdSet.laneBytes 2 (if py = .le311 then 0 else -1)
    | t => SimdSet.laneBytes t.size 0

/-- The value the binding passes on. -/
def act0 (f32 : List Byte → List Byte) (py : PyVer) (t : CTy) : List Byte :=
  if boxed t then bytesAt mem0 64 t.size
  else match t with
    | .ptr => bytesAt mem0 64 8
    | .float => f32 []
    | .double => []
    | .int => SimdSet.laneBytes 4 0
    | .char => SimdSet.laneBytes 1 (if py = .le311 then 0 else 1)
    | .short => SimdSet.laneBytes 2 (if py = .le311 then 0 else 1)
    | t => SimdSet.laneBytes t.size 0

theorem at0 {t : CTy} : At mem0 t 64 := by
  refine ⟨by decide, by decide, ?_, (64, 64), List.mem_singleton.2 rfl, by decide, ?_⟩ <;> cases t <;> decide

theorem denotes0 (f32 : List Byte → List Byte) (py : PyVer) {t : CTy} (ht : known t = true) :
    Denotes false f32 mem0 t (arg0 py t) (doc0 f32 py t) := by
  by_cases hb : boxed t = true
  · simp only [arg0, doc0, if_pos hb]
    exact .boxed (p := 64) hb at0
  · simp only [arg0, doc0, if_neg hb]
    cases t with
    | ptr =>
      have h : Encodes .ptr (64 : Nat) (SimdSet.laneBytes 8 64) := ⟨by decide, by decide⟩
      exact .pointer (p := 64) rfl h
    | float => exact .float
    | double => exact .double
    | int =>
      have h : Encodes .int (if py = .le311 then 1073741824 else 0)
          (SimdSet.laneBytes 4 (if py = .le311 then 1073741824 else 0)) := by cases py <;> exact ⟨by decide, by decide⟩
      exact .integer (Or.inl rfl) h
    | char =>
      have h : Encodes .char (if py = .le311 then 0 else -1)
          (SimdSet.laneBytes 1 (if py = .le311 then 0 else -1)) := by cases py <;> exact ⟨by decide, by decide⟩
      exact .integer (Or.inl rfl) h
    | short =>
      have h : Encodes .short (if py = .le311 then 0 else -1)
          (SimdSet.laneBytes 2 (if py = .le311 then 0 else -1)) := by cases py <;> exact ⟨by decide, by decide⟩
      exact .integer (Or.inl rfl) h
    | llong =>
      have h : Encodes .llong 0 (SimdSet.laneBytes 8 0) := ⟨by decide, by decide⟩
      exact .integer (Or.inl rfl) h
    | uint =>
      have h : Encodes .uint 0 (SimdSet.laneBytes 4 0) := ⟨by decide, by decide⟩
      exact .integer (Or.inr rfl) h
    | ullong =>
      have h : Encodes .ullong 0 (SimdSet.laneBytes 8 0) := ⟨by decide, by decide⟩
      exact .integer (Or.inr rfl) h
    | constInt => cases ht
    | enum => cases ht
    | uchar => cases ht
    | _ => exact absurd rfl hb

theorem asSmall_neg (bits : Nat) (hb : bits = 8 ∨ bits = 16) (py : PyVer) (hp : py ≠ .le311) :
    asSmall bits py (canon (-1)) = 1 := by
  have := Props.C48_asSmall_negation bits hb py hp (-1) (by rcases hb with rfl | rfl <;> decide)
    (by rcases hb with rfl | rfl <;> decide) (by decide)
  simpa using this

theorem asInt_big : Verif.asInt .le311 (canon 1073741824) = (0, none) := by
  have e : digits30 1073741824 = [0, 1] := by
    rw [digits30, dif_neg (by decide), digits30_small (by decide) (by decide)]
  have : canon 1073741824 = ⟨1, [0, 1]⟩ := by
    unfold canon
    rw [show (1073741824 : Int).natAbs = 1073741824 from rfl, e]
    rfl
  rw [this]
  rfl

theorem convert0 (f32 : List Byte → List Byte) (py : PyVer) {t : CTy} (ht : known t = true) (k : Nat) :
    convert py f32 mem0 ⟨t, convFor t, k⟩ (arg0 py t) = .ok (act0 f32 py t, none) := by
  by_cases hb : boxed t = true
  · simp only [arg0, act0, if_pos hb]
    refine convert_deref ?_ (address_at (p := 64) at0)
    cases t <;> first | rfl | cases hb
  · simp only [arg0, act0, if_neg hb]
    cases t with
    | ptr => exact convert_deref rfl (address_at (p := 64) at0)
    | float => rfl
    | double => rfl
    | int =>
      by_cases hp : py = .le311
      · subst hp
        simp only [convert, convFor, toArg, fastInt, if_true, asInt_big, intBytes]
        rfl
      · simp only [convert, convFor, toArg, fastInt, if_neg hp, Props.C48_asInt_312 py hp, intBytes]
        rfl
    | char =>
      by_cases hp : py = .le311
      · subst hp; rfl
      · simp only [convert, convFor, toArg, fastSmall, if_neg hp, asSmall_neg 8 (Or.inl rfl) py hp, intBytes]
        rfl
    | short =>
      by_cases hp : py = .le311
      · subst hp; rfl
      · simp only [convert, convFor, toArg, fastSmall, if_neg hp, asSmall_neg 16 (Or.inr rfl) py hp, intBytes]
        rfl
    | llong => rfl
    | uint => rfl
    | ullong => rfl
    | constInt => cases ht
    | enum => cases ht
    | uchar => cases ht
    | _ => exact absurd rfl hb

theorem denoteAll0 (f32 : List Byte → List Byte) (py : PyVer) : ∀ {ts : List CTy}, (∀ t ∈ ts, known t = true) →
    DenoteAll false f32 mem0 ts (ts.map (arg0 py)) (ts.map (doc0 f32 py))
  | [], _ => .nil
  | t :: _, h => .cons (denotes0 f32 py (h t List.mem_cons_self))
      (denoteAll0 f32 py fun t ht => h t (List.mem_cons_of_mem _ ht))

theorem declare0 (f32 : List Byte → List Byte) (py : PyVer) : ∀ {ts : List CTy} (pre : List LArg),
    (∀ t ∈ ts, known t = true) → declare py f32 mem0 (pre ++ ts.map (arg0 py)) (declsFor ts pre.length) =
      .ok (envFor ts pre.length (ts.map (act0 f32 py)), none)
  | [], _, _ => rfl
  | t :: ts, pre, h => by
    have ih := declare0 f32 py (ts := ts) (pre ++ [arg0 py t]) (fun t ht => h t (List.mem_cons_of_mem _ ht))
    rw [List.append_assoc, List.length_append] at ih
    simp only [List.singleton_append, List.length_singleton] at ih
    simp only [declsFor, declare, envFor, List.map_cons]
    rw [show (pre ++ arg0 py t :: ts.map (arg0 py))[pre.length]? = some (arg0 py t) by simp]
    simp only
    rw [convert0 f32 py (h t List.mem_cons_self)]
    simp only
    rw [ih]
    rfl

theorem lookup0 (f32 : List Byte → List Byte) (py : PyVer) : ∀ (ts : List CTy) (k : Nat) (env : List (Nat × List Byte)),
    (∀ j, k ≤ j → env.lookup j = none) →
      (slots ts k).map (fun j => ((env ++ envFor ts k (ts.map (act0 f32 py))).lookup j).getD []) = ts.map (act0 f32 py)
  | [], _, _, _ => rfl
  | t :: ts, k, env, he => by
    simp only [slots, envFor, List.map_cons]
    congr 1
    · rw [List.lookup_append, he k (Nat.le_refl _)]
      simp
    · have := lookup0 f32 py ts (k + 1) (env ++ [(k, act0 f32 py t)]) (fun j hj => by
        rw [List.lookup_append, he j (by omega), List.lookup_cons, show (j == k) = false by rw [beq_eq_false_iff_ne]; omega]
        rfl)
      rw [List.append_assoc] at this
      exact this

/-- Types with a wrongly converted value. -/
def Bad (py : PyVer) (t : CTy) : Prop :=
  t = .ptr ∨ (py = .le311 ∧ t = .int) ∨ (py ≠ .le311 ∧ (t = .char ∨ t = .short))

theorem bad0 (f32 : List Byte → List Byte) {py : PyVer} {t : CTy} (h : Bad py t) : doc0 f32 py t ≠ act0 f32 py t := by
  rcases h with rfl | ⟨rfl, rfl⟩ | ⟨hp, rfl | rfl⟩
  · show SimdSet.laneBytes 8 64 ≠ bytesAt mem0 64 8
    decide
  · show SimdSet.laneBytes 4 1073741824 ≠ SimdSet.laneBytes 4 0
    decide
  · show SimdSet.laneBytes 1 (if py = .le311 then 0 else -1) ≠ SimdSet.laneBytes 1 (if py = .le311 then 0 else 1)
    rw [if_neg hp, if_neg hp]
    decide
  · show SimdSet.laneBytes 2 (if py = .le311 then 0 else -1) ≠ SimdSet.laneBytes 2 (if py = .le311 then 0 else 1)
    rw [if_neg hp, if_neg hp]
    decide

theorem exec_ub {py : PyVer} {f32 : List Byte → List Byte} {I : Intrinsics} {m : Mem} {args : List LArg}
    {ds : List Decl} {callee : Ident} {passed : List Nat} {env : List (Nat × List Byte)} {e : Option Exc}
    {ret : Option CTy} (hd : declare py f32 m args ds = .ok (env, e))
    (hI : I callee (passed.map fun k => (env.lookup k).getD []) m = none) :
    exec py f32 I m args (.call args.length ds callee passed ret) = .ub .outOfBounds := by
  simp only [exec, hd, hI, ne_eq, not_true, if_false]

theorem exec_bad (f32 : List Byte → List Byte) {py : PyVer} {s : Stub} {t : CTy} (hs : s ∈ stubs)
    (hr : s.raises = false) (hn : needsConst s = false) (ht : t ∈ s.params) (hb : Bad py t) :
    ∃ I args m', Effect false f32 I s mem0 args m' ∧ exec py f32 I mem0 args (implFor s) = .ub .outOfBounds := by
  have hk := params_known hs hr hn
  let docs := s.params.map (doc0 f32 py)
  have hne : s.params.map (act0 f32 py) ≠ docs := by
    intro e
    obtain ⟨i, hi, e2⟩ := List.mem_iff_getElem.1 ht
    have : (s.params.map (act0 f32 py))[i]? = docs[i]? := by rw [e]
    simp only [docs, List.getElem?_map, List.getElem?_eq_getElem hi, e2, Option.map_some, Option.some.injEq] at this
    exact bad0 f32 hb this.symm
  have hd := denoteAll0 f32 py hk
  have hl := denote_length hd
  refine ⟨fun _ vs m => if vs = docs then some ([], m) else none, ?_⟩
  rw [implFor_call hr hn]
  cases h0 : s.ret with
  | none =>
    refine ⟨s.params.map (arg0 py), mem0, .void h0 hd (if_pos rfl), ?_⟩
    have hdec := declare0 f32 py [] hk
    have hlk := lookup0 f32 py s.params 0 [] (fun _ _ => rfl)
    rw [← hl]
    exact exec_ub hdec (if_neg (hlk.symm ▸ hne))
  | some r =>
    refine ⟨.obj (.int (64 : Nat)) :: s.params.map (arg0 py), _, .result h0 hd (if_pos rfl) at0, ?_⟩
    have hdec := declare0 f32 py [.obj (.int (64 : Nat))] hk
    have hlk := lookup0 f32 py s.params 1 [] (fun _ _ => rfl)
    rw [← hl]
    exact exec_ub hdec (if_neg (hlk.symm ▸ hne))

/-! ## An object that is no float -/

theorem declare_float (py : PyVer) (f32 : List Byte → List Byte) (m : Mem) {a : Arg} :
    ∀ (ts : List CTy) (args : List LArg) (k i : Nat) (t : CTy), ts[i]? = some t → floating t = true →
      args[i + k]? = some (.obj a) → ∃ u, declare py f32 m args (declsFor ts k) = .error u := by
  intro ts
  induction ts with
  | nil => intro _ _ _ _ h; simp at h
  | cons t ts ih =>
    intro args k i t' hi hf ha
    simp only [declsFor, declare]
    cases hk : args[k]? with
    | none => exact ⟨_, rfl⟩
    | some b =>
      simp only
      cases hc : convert py f32 m ⟨t, convFor t, k⟩ b with
      | error u => exact ⟨u, rfl⟩
      | ok r =>
        cases i with
        | zero =>
          simp only [List.getElem?_cons_zero, Option.some.injEq] at hi
          subst hi
          rw [Nat.zero_add, hk, Option.some.injEq] at ha
          subst ha
          have : convFor t = .asDouble := by cases t <;> first | rfl | cases hf
          simp only [convert, this] at hc
          cases hc
        | succ i =>
          rw [List.getElem?_cons_succ] at hi
          obtain ⟨u, hu⟩ := ih args (k + 1) i t' hi hf (by rw [show i + (k + 1) = i + 1 + k by omega]; exact ha)
          refine ⟨u, ?_⟩
          obtain ⟨v, e⟩ := r
          simp only [hu]

/-! ## What a call can change -/

theorem address_int {t : CTy} {m : Mem} {a : LArg} {p : Nat} (h : address t m a = .ok p) :
    Unsafe.asVoidPtr (toArg a) = .ok p ∧ m.covers p t.size = true ∧ p % t.size = 0 := by
  unfold address at h
  cases hv : Unsafe.asVoidPtr (toArg a) with
  | error e => rw [hv] at h; cases h
  | ok q =>
    rw [hv] at h
    simp only at h
    split at h
    · cases h
    · split at h
      · cases h
      · split at h
        · rename_i h1 h2 h3
          cases h
          exact ⟨rfl, h3, by omega⟩
        · cases h

theorem voidPtr_int {a : LArg} {p : Nat} (h : Unsafe.asVoidPtr (toArg a) = .ok p) :
    ∃ z : Int, a = .obj (.int z) ∧ z % 2 ^ 64 = p := by
  cases a with
  | float bs => cases h
  | obj a =>
    cases a with
    | int z =>
      refine ⟨z, rfl, ?_⟩
      simp only [toArg, Unsafe.asVoidPtr] at h
      split at h
      · cases h
        rw [Int.toNat_of_nonneg (Int.emod_nonneg _ (by decide))]
      · cases h
    | index _ => cases h
    | other => cases h

theorem convert_overflow {py : PyVer} {f32 : List Byte → List Byte} {m : Mem} {b : LArg} {e : Exc} {k : Nat}
    (hb : asLong (toArg b) = (-1, some e)) :
    convert py f32 m ⟨.llong, .asLongLong, k⟩ b = .ok (List.replicate 8 255, some e) := by
  simp only [convert, hb, intBytes]
  rfl

theorem exec_overflow {py : PyVer} {f32 : List Byte → List Byte} {I : Intrinsics} {m m' : Mem} {a b : LArg} {e : Exc}
    {t : CTy} {callee : Ident} {p : Nat} {v : List Byte} (ha : address t m' a = .ok p)
    (hb : asLong (toArg b) = (-1, some e)) (hI : I callee [List.replicate 8 255] m = some (v, m')) :
    exec py f32 I m [a, b] (.call 2 (declsFor [.llong] 1) callee [1] (some t)) =
      .pending (stored m' p v) .none e := by
  have hd : declare py f32 m [a, b] (declsFor [.llong] 1) = .ok ([(1, List.replicate 8 255)], some e) := by
    simp only [declsFor, declare, convFor, convert_overflow hb, List.getElem?_cons_succ, List.getElem?_cons_zero]
    rfl
  simp only [exec, List.length_cons, List.length_nil, hd, ne_eq, not_true, if_false, List.map_cons, List.map_nil,
    List.lookup_cons, beq_self_eq_true, Option.getD_some, hI, List.getElem?_cons_zero, ha, write_stored]
  rfl

end Verif.LowAVX512
