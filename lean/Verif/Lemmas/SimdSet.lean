import Verif.Model.SimdSet
import Verif.Spec.GuardVec
import Verif.Lemmas.Unsafe
import Verif.Props.IntValues

/-! # Lanes in memory -/

namespace Verif.SimdSet

open Spec

theorem laneBytes_length (n : Nat) : ∀ v, (laneBytes n v).length = n := by
  induction n with
  | zero => intro v; rfl
  | succ n ih => intro v; simp [laneBytes, ih]

theorem leNat_laneBytes (n : Nat) : ∀ v : Int, (leNat (laneBytes n v) : Int) = v % 256 ^ n := by
  induction n with
  | zero => intro v; simp [laneBytes, leNat, Int.emod_one]
  | succ n ih =>
    intro v
    simp only [laneBytes, leNat, Fin.ofNat]
    have h := ih (v / 256)
    have hk : (0 : Int) < 256 ^ n := Int.pow_pos (by decide)
    generalize leNat (laneBytes n (v / 256)) = r at h ⊢
    rw [Int.pow_succ]
    generalize (256 : Int) ^ n = k at h hk ⊢
    have hr0 := Int.emod_nonneg (v / 256) (Int.ne_of_gt hk)
    have hr1 := Int.emod_lt_of_pos (v / 256) hk
    have e : v / 256 = k * (v / 256 / k) + (v / 256) % k := (Int.mul_ediv_add_emod _ _).symm
    have e2 : v = (v % 256 + 256 * ((v / 256) % k)) + (k * 256) * (v / 256 / k) := by
      have e3 : (k * 256) * (v / 256 / k) = 256 * (k * (v / 256 / k)) := by
        rw [Int.mul_comm k 256, Int.mul_assoc]
      rw [e3]
      omega
    have e4 : v % (k * 256) = v % 256 + 256 * ((v / 256) % k) := by
      conv => lhs; rw [e2]
      rw [Int.add_mul_emod_self_left, Int.emod_eq_of_lt (by omega) (by omega)]
    rw [e4]
    omega

theorem leInt_laneBytes (f : VecFn) {v : Int} (h : LaneFits f v) : leInt (laneBytes f.lane v) = v := by
  unfold LaneFits at h
  unfold leInt
  rw [laneBytes_length]
  have hn := leNat_laneBytes f.lane v
  have hk : (0 : Int) < 256 ^ f.lane := Int.pow_pos (by decide)
  have hc : ((256 ^ f.lane : Nat) : Int) = (256 : Int) ^ f.lane := by simp
  generalize leNat (laneBytes f.lane v) = r at hn ⊢
  rw [← hc] at hk h hn ⊢
  generalize (256 ^ f.lane : Nat) = k at hk h hn ⊢
  by_cases hv : 0 ≤ v
  · rw [Int.emod_eq_of_lt hv (by omega)] at hn
    rw [if_pos (by omega)]
    exact hn
  · have : v % (k : Int) = v + k := by
      rw [← Int.add_emod_right, Int.emod_eq_of_lt (by omega) (by omega)]
    rw [this] at hn
    rw [if_neg (by omega)]
    omega

theorem flatten_getElem? {L : Nat} : ∀ (ls : List (List Byte)), (∀ l ∈ ls, l.length = L) →
    ∀ i j, j < L → ls.flatten[i * L + j]? = (ls[i]?).bind (·[j]?) := by
  intro ls
  induction ls with
  | nil => intro _ i j _; simp
  | cons l ls ih =>
    intro h i j hj
    have hl := h l (by simp)
    cases i with
    | zero =>
      rw [List.flatten_cons, List.getElem?_append_left (by omega)]
      simp
    | succ i =>
      have : (i + 1) * L + j = L + (i * L + j) := by rw [Nat.succ_mul]; omega
      rw [List.flatten_cons, List.getElem?_append_right (by omega), List.getElem?_cons_succ,
        ← ih (fun l hl => h l (by simp [hl])) i j hj]
      congr 1
      omega

theorem lane_pos (f : VecFn) : 0 < f.lane := by cases f <;> decide

theorem lanes_width (f : VecFn) : nargs f * f.lane = f.width := by cases f <;> rfl

theorem flatten_length {L : Nat} : ∀ (ls : List (List Byte)), (∀ l ∈ ls, l.length = L) →
    ls.flatten.length = ls.length * L := by
  intro ls
  induction ls with
  | nil => intro _; simp
  | cons l ls ih =>
    intro h
    rw [List.flatten_cons, List.length_append, ih (fun l hl => h l (by simp [hl])), h l (by simp), List.length_cons,
      Nat.succ_mul]
    omega

theorem setLanes_length (f : VecFn) (vs : List Int) : (setLanes f vs).length = vs.length * f.lane := by
  unfold setLanes
  rw [flatten_length (L := f.lane)]
  · simp
  · intro l hl
    obtain ⟨v, _, rfl⟩ := List.mem_map.1 hl
    exact laneBytes_length _ _

/-- Lane `i` of the stored vector is the `i`-th last value. -/
theorem laneAt_write (m : Mem) (f : VecFn) (p : Nat) (vs : List Int) (hv : ∀ v ∈ vs, LaneFits f v) (i : Nat)
    (hi : i < vs.length) : laneAt (m.write p (setLanes f vs)).byte f p i = vs[vs.length - 1 - i] := by
  unfold laneAt
  have key : (List.range f.lane).map (fun j => (m.write p (setLanes f vs)).byte (p + i * f.lane + j)) =
      laneBytes f.lane vs[vs.length - 1 - i] := by
    apply List.ext_getElem?
    intro j
    by_cases hj : j < f.lane
    · rw [List.getElem?_map, List.getElem?_range hj, Option.map_some]
      have hlt : i * f.lane + j < (setLanes f vs).length := by
        rw [setLanes_length]
        calc i * f.lane + j < i * f.lane + f.lane := by omega
          _ = (i + 1) * f.lane := by rw [Nat.succ_mul]
          _ ≤ vs.length * f.lane := Nat.mul_le_mul_right _ hi
      rw [show p + i * f.lane + j = p + (i * f.lane + j) by omega, Unsafe.write_byte_in hlt,
        ← List.getElem?_eq_getElem]
      unfold setLanes
      rw [flatten_getElem? _ (by
        intro l hl
        obtain ⟨v, _, rfl⟩ := List.mem_map.1 hl
        exact laneBytes_length _ _) i j hj, List.getElem?_map, List.getElem?_reverse hi]
      rw [List.getElem?_eq_getElem (by omega)]
      rfl
    · rw [List.getElem?_eq_none (by simp; omega), List.getElem?_eq_none (by rw [laneBytes_length]; omega)]
  rw [key]
  exact leInt_laneBytes f (hv _ (List.getElem_mem _))

/-- Conversion of integer arguments. -/
def intConv (py : PyVer) (f : VecFn) (v : Int) : CRes :=
  if f.lane = 4 then asInt py (canon v) else (asSmall (8 * f.lane) py (canon v), none)

theorem conv_int (py : PyVer) (f : VecFn) (v : Int) : conv py f (.int v) = .ok (intConv py f v) := by
  cases f <;> rfl

/-- The exception that remains. -/
def remains (es : List (Option Exc)) : Option Exc := es.foldr (fun e r => r.or e) none

theorem convs_int (py : PyVer) (f : VecFn) (vs : List Int) :
    convs py f (vs.map .int) = .ok (vs.map fun v => (intConv py f v).1, remains (vs.map fun v => (intConv py f v).2)) := by
  induction vs with
  | nil => rfl
  | cons v vs ih =>
    simp only [List.map_cons, convs, conv_int, ih]
    rfl

theorem remains_none {es : List (Option Exc)} (h : ∀ e ∈ es, e = none) : remains es = none := by
  induction es with
  | nil => rfl
  | cons e es ih =>
    have : remains (e :: es) = (remains es).or e := rfl
    rw [this, ih (fun e he => h e (by simp [he])), h e (by simp)]
    rfl

theorem remains_some {es : List (Option Exc)} {x : Exc} (h : some x ∈ es) : ∃ y, remains es = some y := by
  induction es with
  | nil => cases h
  | cons e es ih =>
    have : remains (e :: es) = (remains es).or e := rfl
    rw [this]
    cases hr : remains es with
    | some y => exact ⟨y, rfl⟩
    | none =>
      rcases List.mem_cons.1 h with rfl | h
      · exact ⟨x, rfl⟩
      · obtain ⟨y, hy⟩ := ih h
        rw [hy] at hr
        cases hr

/-- A value converted for a lane fits it. -/
theorem intConv_fits (py : PyVer) (f : VecFn) (v : Int) : LaneFits f (intConv py f v).1 := by
  have small : ∀ b, b = 8 ∨ b = 16 → ∀ x : Int, -(2 ^ b : Int) ≤ 2 * wrapS b x ∧ 2 * wrapS b x < 2 ^ b := by
    intro b hb x
    unfold wrapS
    have h1 := Int.le_bmod (x := x) (m := 2 ^ b) (Nat.two_pow_pos b)
    have h2 := Int.bmod_lt (x := x) (m := 2 ^ b) (Nat.two_pow_pos b)
    rcases hb with rfl | rfl <;> omega
  have sm : ∀ b, b = 8 ∨ b = 16 → -(2 ^ b : Int) ≤ 2 * asSmall b py (canon v) ∧ 2 * asSmall b py (canon v) < 2 ^ b := by
    intro b hb
    unfold asSmall
    cases py with
    | le311 =>
      simp only
      split
      · rcases hb with rfl | rfl <;> omega
      · rcases hb with rfl | rfl <;> omega
      · exact small b hb _
    | v312 => exact small b hb _
    | ge313 => exact small b hb _
  have big : -(2 ^ 32 : Int) ≤ 2 * (asInt py (canon v)).1 ∧ 2 * (asInt py (canon v)).1 < 2 ^ 32 := by
    unfold asInt
    cases py with
    | le311 =>
      have hd := digits30_lt v.natAbs
      simp only [canon]
      generalize digits30 v.natAbs = dd at hd
      split
      · decide
      · decide
      · rename_i d _ _
        have hd := hd d (by simp)
        have hw : wrapS 32 (d : Int) = d := wrapS_of_fits .i32 (by simp only [Kind.bits, fits32]; omega)
        rw [hw]
        split <;> dsimp only <;> omega
    | v312 =>
      dsimp only
      rw [canon_value]
      by_cases h : FitsS 32 v
      · rw [if_pos h]; rw [fits32] at h; dsimp only; omega
      · rw [if_neg h]; decide
    | ge313 =>
      dsimp only
      rw [canon_value]
      by_cases h : FitsS 32 v
      · rw [if_pos h]; rw [fits32] at h; dsimp only; omega
      · rw [if_neg h]; decide
  have s8 := sm 8 (.inl rfl)
  have s16 := sm 16 (.inr rfl)
  unfold LaneFits intConv
  cases f
  · exact big
  · exact s16
  · exact s8
  · exact big
  · exact s16
  · exact s8

/-- The outcome for integer arguments and a good pointer. -/
theorem setVector_int (py : PyVer) (f : VecFn) (m : Mem) {a : Arg} {p : Nat} (vs : List Int) (hlen : vs.length = nargs f)
    (ha : asWord a = some p) (h0 : 0 < p) (hal : p % f.width = 0) (hc : m.covers p f.width = true) :
    ∃ m', setVector py f m (a :: vs.map .int) =
        (match remains (vs.map fun v => (intConv py f v).2) with
          | none => .ok m' .none
          | some e => .pending m' .none e) ∧
      m'.blocks = m.blocks ∧
      (∀ i (hi : i < vs.length), laneAt m'.byte f p i = (intConv py f vs[vs.length - 1 - i]).1) ∧
      ∀ x, x < p ∨ p + f.width ≤ x → m'.byte x = m.byte x := by
  refine ⟨m.write p (setLanes f (vs.map fun v => (intConv py f v).1)), ?_, rfl, fun i hi => ?_, fun x hx => ?_⟩
  · simp only [setVector, convs_int, Unsafe.word_asVoidPtr ha, List.length_map]
    rw [if_neg (by omega), if_neg (by omega), if_neg (by omega), if_pos hc]
    rcases remains (vs.map fun v => (intConv py f v).2) <;> rfl
  · rw [laneAt_write m f p _ (by
      intro w hw
      obtain ⟨v, _, rfl⟩ := List.mem_map.1 hw
      exact intConv_fits py f v) i (by simpa using hi)]
    simp
  · apply Unsafe.write_byte_out
    rw [setLanes_length, List.length_map, hlen, lanes_width]
    exact hx

theorem fits_lane {f : VecFn} {v : Int} (hf : LaneFits f v) :
    (f.lane = 4 → FitsS 32 v) ∧ (f.lane ≠ 4 → FitsS (8 * f.lane) v) := by
  unfold LaneFits at hf
  unfold FitsS
  cases f <;> simp only [VecFn.lane] at hf ⊢ <;> refine ⟨fun h => ?_, fun h => ?_⟩ <;>
    first | exact absurd h (by decide) | exact absurd rfl h | omega

theorem lane_cases (f : VecFn) (h : f.lane ≠ 4) : 8 * f.lane = 8 ∨ 8 * f.lane = 16 := by
  cases f <;> first | exact absurd rfl h | exact Or.inl rfl | exact Or.inr rfl

theorem intConv_exact (py : PyVer) (f : VecFn) (v : Int) (hf : LaneFits f v)
    (h1 : py = .le311 → f.lane = 4 → v.natAbs < 2 ^ 30)
    (h2 : py ≠ .le311 → f.lane ≠ 4 → 0 ≤ v ∨ 2 * v = -(256 ^ f.lane : Int)) : intConv py f v = (v, none) := by
  obtain ⟨f4, fs⟩ := fits_lane hf
  unfold intConv
  by_cases h4 : f.lane = 4
  · rw [if_pos h4]
    by_cases hp : py = .le311
    · subst hp
      exact Props.C48_asInt_311_partial v (h1 rfl h4)
    · rw [Props.C48_asInt_312 py hp, if_pos (f4 h4)]
  · rw [if_neg h4]
    have hb := lane_cases f h4
    by_cases hp : py = .le311
    · subst hp
      rw [Props.C48_asSmall_311 _ hb v (fs h4)]
    · rcases h2 hp h4 with h | h
      · rw [Props.C48_asSmall_312_partial _ hb py hp v (fs h4) h]
      · have key : ∀ py : PyVer, py ≠ .le311 → asSmall (8 * f.lane) py (canon v) =
            wrapS (8 * f.lane) ((digits30 v.natAbs).headD 0 : Nat) := by
          intro py hp
          cases py with
          | le311 => exact absurd rfl hp
          | v312 => rfl
          | ge313 => rfl
        rw [key py hp]
        have e : f.lane = 1 ∧ v = -128 ∨ f.lane = 2 ∧ v = -32768 := by
          have one : 2 * v = -(256 ^ 1 : Int) → v = -128 := by omega
          have two : 2 * v = -(256 ^ 2 : Int) → v = -32768 := by omega
          cases f <;> first | exact absurd rfl h4 | exact Or.inl ⟨rfl, one h⟩ | exact Or.inr ⟨rfl, two h⟩
        rcases e with ⟨e, rfl⟩ | ⟨e, rfl⟩
        · rw [e, show (-128 : Int).natAbs = 128 from rfl, digits30_small (by decide) (by decide)]
          rfl
        · rw [e, show (-32768 : Int).natAbs = 32768 from rfl, digits30_small (by decide) (by decide)]
          rfl

theorem intConv_small_none (py : PyVer) (f : VecFn) (hf : f.lane ≠ 4) (v : Int) : (intConv py f v).2 = none := by
  unfold intConv
  rw [if_neg hf]

theorem intConv_small_neg (py : PyVer) (hpy : py ≠ .le311) (f : VecFn) (hf : f.lane ≠ 4) (v : Int) (h : LaneFits f v)
    (h0 : v < 0) (hmin : 2 * v ≠ -(256 ^ f.lane : Int)) : (intConv py f v).1 = -v := by
  unfold intConv
  rw [if_neg hf]
  refine Props.C48_asSmall_negation _ (lane_cases f hf) py hpy v ((fits_lane h).2 hf) ?_ h0
  intro e
  apply hmin
  rw [e]
  cases f <;> first | exact absurd rfl hf | rfl

theorem intConv_311_none (f : VecFn) (v : Int) : (intConv .le311 f v).2 = none := by
  unfold intConv
  by_cases hf : f.lane = 4
  · rw [if_pos hf]
    simp only [asInt]
    split <;> rfl
  · rw [if_neg hf]

theorem conv_confused (py : PyVer) (f : VecFn) (hf : f.lane ≠ 4 ∨ py = .le311) (a : Arg) (h : a.isInt = false) :
    conv py f a = .error .typeConfusion := by
  cases a with
  | int v => cases h
  | index v =>
    rcases hf with hf | rfl
    · cases f <;> first | rfl | exact absurd rfl hf
    · cases f <;> rfl
  | other =>
    rcases hf with hf | rfl
    · cases f <;> first | rfl | exact absurd rfl hf
    · cases f <;> rfl

theorem convs_confused (py : PyVer) (f : VecFn) (hf : f.lane ≠ 4 ∨ py = .le311) (as : List Arg) (a : Arg) (ha : a ∈ as)
    (h : a.isInt = false) : ∃ u, convs py f as = .error u := by
  induction as with
  | nil => cases ha
  | cons b as ih =>
    simp only [convs]
    rcases List.mem_cons.1 ha with rfl | ha
    · rw [conv_confused py f hf a h]
      exact ⟨_, rfl⟩
    · obtain ⟨u, hu⟩ := ih ha
      rw [hu]
      cases conv py f b with
      | error u => exact ⟨u, rfl⟩
      | ok r => exact ⟨u, rfl⟩

end Verif.SimdSet
