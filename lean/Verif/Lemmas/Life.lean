import Verif.Spec.Life

/-!
# Reference counts and blocks of lists

`Inv h R B`: counts are exact when the references in `R` are added to those in the lists, and `B` blocks are lost.
-/

namespace Verif.Life

open Verif.Spec.Life

/-! ## Sums -/

theorem total_congr {f g : Nat → Nat} : ∀ n, (∀ i, i < n → f i = g i) → total f n = total g n
  | 0, _ => rfl
  | n + 1, h => by
    simp only [total]
    rw [total_congr n (fun i hi => h i (by omega)), h n (by omega)]

theorem total_upd {α : Type} (f : α → Nat) (g : Nat → α) (i : Nat) (v : α) : ∀ n, i < n →
    total (fun j => f (upd g i v j)) n + f (g i) = total (fun j => f (g j)) n + f v
  | 0, h => by omega
  | n + 1, h => by
    simp only [total]
    by_cases hi : i = n
    · subst hi
      have : total (fun j => f (upd g i v j)) i = total (fun j => f (g j)) i :=
        total_congr i (fun j hj => by simp only [upd]; rw [if_neg (by omega)])
      simp only [upd, if_true] at this ⊢
      omega
    · have ih := total_upd f g i v n (by omega)
      have : upd g i v n = g n := by simp only [upd]; rw [if_neg (by omega)]
      rw [this]
      omega

theorem total_le {f : Nat → Nat} {i : Nat} : ∀ n, i < n → f i ≤ total f n
  | 0, h => by omega
  | n + 1, h => by
    simp only [total]
    by_cases hi : i = n
    · subst hi; omega
    · have := total_le (f := f) n (show i < n by omega)
      omega

theorem total_pos {f : Nat → Nat} : ∀ n, 0 < total f n → ∃ i, i < n ∧ 0 < f i
  | 0, h => by simp [total] at h
  | n + 1, h => by
    simp only [total] at h
    by_cases h' : 0 < f n
    · exact ⟨n, by omega, h'⟩
    · obtain ⟨i, hi, hf⟩ := total_pos n (by omega : 0 < total f n)
      exact ⟨i, by omega, hf⟩

theorem total_zero {f : Nat → Nat} : ∀ n, (∀ i, i < n → f i = 0) → total f n = 0
  | 0, _ => rfl
  | n + 1, h => by
    simp only [total]
    rw [total_zero n (fun i hi => h i (by omega)), h n (by omega)]

/-! ## The invariant -/

def refsOf : Option Cell → List Nat
  | some c => c.refs
  | none => []

def rcOf : Option Cell → Nat
  | some c => c.rc
  | none => 0

def blocksOf : Option Cell → Nat
  | some c => c.blocks
  | none => 0

def alive : Option Cell → Nat
  | some _ => 1
  | none => 0

theorem refsOf_some (c : Cell) : refsOf (some c) = c.refs := rfl
theorem refsOf_none : refsOf none = [] := rfl
theorem rcOf_some (c : Cell) : rcOf (some c) = c.rc := rfl
theorem rcOf_none : rcOf none = 0 := rfl
theorem blocksOf_some (c : Cell) : blocksOf (some c) = c.blocks := rfl
theorem blocksOf_none : blocksOf none = 0 := rfl
theorem alive_some (c : Cell) : alive (some c) = 1 := rfl
theorem alive_none : alive none = 0 := rfl

theorem upd_self {α : Type} (f : Nat → α) (i : Nat) (v : α) : upd f i v i = v := by simp [upd]
theorem upd_ne {α : Type} (f : Nat → α) {i j : Nat} (v : α) (h : j ≠ i) : upd f i v j = f j := by simp [upd, h]

/-- References to `x` in lists. -/
def inner (h : Heap) (x : Nat) : Nat := total (fun i => (refsOf (h.cells i)).count x) h.next

/-- Number of objects. -/
def live (h : Heap) : Nat := total (fun i => alive (h.cells i)) h.next

structure Inv (h : Heap) (R : List Nat) (B : Nat) : Prop where
  count : ∀ x, rcOf (h.cells x) = R.count x + inner h x
  pos : ∀ x c, h.cells x = some c → 0 < c.rc
  bound : ∀ x, h.next ≤ x → h.cells x = none
  blocks : h.blocks = total (fun i => blocksOf (h.cells i)) h.next + B
  zero : ∀ x c, h.cells x = some c → c.body = .zero → c.blocks = 0

/-- The same when the references in `P` are in lists already but not counted yet. -/
structure Owed (h : Heap) (P R : List Nat) (B : Nat) : Prop where
  count : ∀ x, rcOf (h.cells x) + P.count x = R.count x + inner h x
  pos : ∀ x c, h.cells x = some c → 0 < c.rc
  bound : ∀ x, h.next ≤ x → h.cells x = none
  blocks : h.blocks = total (fun i => blocksOf (h.cells i)) h.next + B
  zero : ∀ x c, h.cells x = some c → c.body = .zero → c.blocks = 0

theorem Owed.inv {h : Heap} {R : List Nat} {B : Nat} (o : Owed h [] R B) : Inv h R B :=
  ⟨fun x => by have := o.count x; simpa using this, o.pos, o.bound, o.blocks, o.zero⟩

theorem Inv.owed {h : Heap} {R : List Nat} {B : Nat} (i : Inv h R B) (P : List Nat) : Owed h P (P ++ R) B :=
  ⟨fun x => by have := i.count x; rw [List.count_append]; omega, i.pos, i.bound, i.blocks, i.zero⟩

/-- Every linked list is constructed. -/
def Made (h : Heap) : Prop := ∀ x c, h.cells x = some c → c.cls.linked = true → c.body ≠ .zero

/-- Two objects that differ in the count only. -/
def Same (c d : Cell) : Prop := c.body = d.body ∧ c.cls = d.cls ∧ c.blocks = d.blocks

/-- Every object of `h'` is one of `h`, up to counts. -/
def Sub (h' h : Heap) : Prop :=
  h'.next = h.next ∧ ∀ x c', h'.cells x = some c' → ∃ c, h.cells x = some c ∧ Same c' c

theorem Sub.refl (h : Heap) : Sub h h := ⟨rfl, fun _ c hc => ⟨c, hc, rfl, rfl, rfl⟩⟩

theorem Sub.trans {a b c : Heap} (h1 : Sub a b) (h2 : Sub b c) : Sub a c := by
  refine ⟨h1.1.trans h2.1, fun x d hd => ?_⟩
  obtain ⟨e, he, s1, s2, s3⟩ := h1.2 x d hd
  obtain ⟨f, hf, t1, t2, t3⟩ := h2.2 x e he
  exact ⟨f, hf, s1.trans t1, s2.trans t2, s3.trans t3⟩

theorem Sub.made {h' h : Heap} (s : Sub h' h) (m : Made h) : Made h' := by
  intro x c hc hl
  obtain ⟨d, hd, b, k, _⟩ := s.2 x c hc
  rw [b]
  exact m x d hd (k ▸ hl)

theorem Inv.lt {h : Heap} {R : List Nat} {B : Nat} (i : Inv h R B) {x : Nat} {c : Cell} (hc : h.cells x = some c) :
    x < h.next := by
  by_cases hx : x < h.next
  · exact hx
  · rw [i.bound x (by omega)] at hc
    cases hc

theorem Inv.lives {h : Heap} {R : List Nat} {B : Nat} (i : Inv h R B) {x : Nat} (hx : x ∈ R) : ∃ c, h.cells x = some c := by
  have := i.count x
  have hp : 0 < R.count x := List.count_pos_iff.2 hx
  match hc : h.cells x with
  | some c => exact ⟨c, rfl⟩
  | none => rw [hc] at this; simp only [rcOf_none] at this; omega

theorem Inv.held {h : Heap} {R : List Nat} {B : Nat} (i : Inv h R B) {o x : Nat} {c : Cell} (hc : h.cells o = some c)
    (hx : x ∈ c.refs) : ∃ c, h.cells x = some c := by
  have := i.count x
  have hp : 0 < c.refs.count x := List.count_pos_iff.2 hx
  have hle := total_le (f := fun i => (refsOf (h.cells i)).count x) h.next (i.lt hc)
  simp only [hc, refsOf_some] at hle
  match hc : h.cells x with
  | some c => exact ⟨c, rfl⟩
  | none =>
    rw [hc] at this
    simp only [rcOf_none, inner] at this
    omega

theorem Inv.perm {h : Heap} {R S : List Nat} {B : Nat} (i : Inv h R B) (p : R.Perm S) : Inv h S B :=
  ⟨fun x => by rw [i.count x, p.count_eq], i.pos, i.bound, i.blocks, i.zero⟩

/-! ## Changing one object -/

theorem inner_upd (h : Heap) (i : Nat) (v : Option Cell) (b x : Nat) (hi : i < h.next) :
    inner { cells := upd h.cells i v, next := h.next, blocks := b } x + (refsOf (h.cells i)).count x =
      inner h x + (refsOf v).count x :=
  total_upd (fun c => (refsOf c).count x) h.cells i v h.next hi

theorem live_upd (h : Heap) (i : Nat) (v : Option Cell) (b : Nat) (hi : i < h.next) :
    live { cells := upd h.cells i v, next := h.next, blocks := b } + alive (h.cells i) = live h + alive v :=
  total_upd alive h.cells i v h.next hi

theorem blocks_upd (h : Heap) (i : Nat) (v : Option Cell) (hi : i < h.next) :
    total (fun j => blocksOf (upd h.cells i v j)) h.next + blocksOf (h.cells i) =
      total (fun j => blocksOf (h.cells j)) h.next + blocksOf v :=
  total_upd blocksOf h.cells i v h.next hi

/-- Replacing the container of an object. -/
theorem Inv.change {h : Heap} {R P S : List Nat} {B B' : Nat} (iv : Inv h R B) {o : Nat} {c : Cell} (hc : h.cells o = some c)
    (body : Body) (nb b : Nat)
    (hS : ∀ x, S.count x + (body.items.filterMap Elem.ref?).count x = P.count x + R.count x + c.refs.count x)
    (hb : b + c.blocks + B = h.blocks + nb + B') (hz : body = .zero → nb = 0) :
    Owed ({ h with blocks := b }.put o { c with body := body, blocks := nb }) P S B' := by
  have hlt := iv.lt hc
  refine ⟨fun x => ?_, fun x d hd => ?_, fun x hx => ?_, ?_, fun x d hd hb' => ?_⟩
  · have h1 := inner_upd h o (some { c with body := body, blocks := nb }) b x hlt
    have h2 := iv.count x
    have h3 := hS x
    rw [hc] at h1
    simp only [refsOf_some, Cell.refs] at h1
    simp only [Heap.put, Cell.refs] at h3 ⊢
    have h4 : rcOf (upd h.cells o (some { c with body := body, blocks := nb }) x) = rcOf (h.cells x) := by
      by_cases hx : x = o
      · subst hx; rw [hc, upd_self]; rfl
      · rw [upd_ne _ _ hx]
    rw [h4]
    omega
  · simp only [Heap.put, upd] at hd
    split at hd
    · cases hd; exact iv.pos o c hc
    · exact iv.pos x d hd
  · simp only [Heap.put, upd]
    rw [if_neg (by intro h'; subst h'; simp only [Heap.put] at hx; omega)]
    exact iv.bound x hx
  · have e := iv.blocks
    have e1 := blocks_upd h o (some { c with body := body, blocks := nb }) hlt
    rw [hc] at e1
    simp only [blocksOf_some] at e1
    simp only [Heap.put]
    omega
  · simp only [Heap.put, upd] at hd
    split at hd
    · cases hd; exact hz hb'
    · exact iv.zero x d hd hb'

theorem incref_spec {h : Heap} {P R : List Nat} {B : Nat} {x : Nat} (iv : Owed h (x :: P) R B) {c : Cell} (hc : h.cells x = some c) :
    ∃ h', incref h x = .ok h' ∧ Owed h' P R B ∧ Sub h' h ∧ live h' = live h ∧ ∀ y, (h.cells y).isSome → (h'.cells y).isSome := by
  have hlt : x < h.next := by
    by_cases hx : x < h.next
    · exact hx
    · rw [iv.bound x (by omega)] at hc
      cases hc
  refine ⟨h.put x { c with rc := c.rc + 1 }, by simp only [incref, hc], ?_, ?_, ?_, ?_⟩
  · refine ⟨fun y => ?_, fun y d hd => ?_, fun y hy => ?_, ?_, fun y d hd hb' => ?_⟩
    · have h1 := inner_upd h x (some { c with rc := c.rc + 1 }) h.blocks y hlt
      have h2 := iv.count y
      rw [hc] at h1
      simp only [refsOf_some, Cell.refs] at h1
      simp only [Heap.put, List.count_cons] at h1 h2 ⊢
      by_cases hy : y = x
      · subst hy
        rw [hc] at h2
        simp only [rcOf_some, upd_self, if_true, beq_self_eq_true] at h2 ⊢
        omega
      · have : (x == y) = false := by simp; omega
        simp only [this, Bool.false_eq_true, if_false] at h2
        simp only [upd_ne _ _ hy]
        omega
    · simp only [Heap.put, upd] at hd
      split at hd
      · cases hd; simp
      · exact iv.pos y d hd
    · simp only [Heap.put, upd]
      rw [if_neg (by intro h'; subst h'; simp only [Heap.put] at hy; omega)]
      exact iv.bound y hy
    · have h1 := blocks_upd h x (some { c with rc := c.rc + 1 }) hlt
      have := iv.blocks
      rw [hc] at h1
      simp only [blocksOf_some] at h1
      simp only [Heap.put]
      omega
    · simp only [Heap.put, upd] at hd
      split at hd
      · rename_i hy; subst hy; cases hd; exact iv.zero y c hc hb'
      · exact iv.zero y d hd hb'
  · refine ⟨rfl, fun y d hd => ?_⟩
    simp only [Heap.put, upd] at hd
    split at hd
    · rename_i hy; subst hy; cases hd; exact ⟨c, hc, rfl, rfl, rfl⟩
    · exact ⟨d, hd, rfl, rfl, rfl⟩
  · have := live_upd h x (some { c with rc := c.rc + 1 }) h.blocks hlt
    rw [hc] at this
    simp only [alive_some] at this
    simp only [Heap.put]
    omega
  · intro y hy
    simp only [Heap.put, upd]
    split
    · rfl
    · exact hy

theorem increfs_spec : ∀ (xs : List Nat) {h : Heap} {R : List Nat} {B : Nat}, Owed h xs R B →
    (∀ x ∈ xs, (h.cells x).isSome) →
    ∃ h', xs.foldlM incref h = .ok h' ∧ Inv h' R B ∧ Sub h' h ∧ live h' = live h ∧
      ∀ y, (h.cells y).isSome → (h'.cells y).isSome
  | [], h, R, B, iv, _ => ⟨h, rfl, iv.inv, Sub.refl h, rfl, fun _ hy => hy⟩
  | x :: xs, h, R, B, iv, hx => by
    obtain ⟨c, hc⟩ := Option.isSome_iff_exists.1 (hx x (by simp))
    obtain ⟨h1, e1, i1, s1, l1, k1⟩ := incref_spec iv hc
    obtain ⟨h2, e2, i2, s2, l2, k2⟩ := increfs_spec xs i1 (fun y hy => k1 y (hx y (by simp [hy])))
    refine ⟨h2, ?_, i2, s2.trans s1, l2.trans l1, fun y hy => k2 y (k1 y hy)⟩
    simp only [List.foldlM_cons, e1, bind, Except.bind]
    exact e2

/-! ## Releasing references -/

/-- How a release can go wrong. -/
def Bad (D : Nat) (h : Heap) (u : UB) : Prop := (u = .stackOverflow ∧ D ≤ live h) ∨ (u = .nullDeref ∧ ¬ Made h)

/-- What a release does. -/
def Released (D : Nat) (h : Heap) (R : List Nat) (B : Nat) : Except UB Heap → Prop
  | .ok h' => Inv h' R B ∧ Sub h' h ∧ live h' ≤ live h
  | .error u => Bad D h u

theorem Released.mono {D : Nat} {h h0 : Heap} {R : List Nat} {B : Nat} {r : Except UB Heap} (hr : Released D h R B r)
    (s : Sub h h0) (l : live h ≤ live h0) : Released D h0 R B r := by
  match r with
  | .ok h' => exact ⟨hr.1, hr.2.1.trans s, Nat.le_trans hr.2.2 l⟩
  | .error u =>
    rcases hr with ⟨e, hd⟩ | ⟨e, hm⟩
    · exact .inl ⟨e, by omega⟩
    · exact .inr ⟨e, fun m => hm (s.made m)⟩

theorem releases {D : Nat} (ih : ∀ (h : Heap) (x : Nat) (R : List Nat) (B : Nat), Inv h (x :: R) B → Released D h R B (decref D h x)) :
    ∀ (xs : List Nat) (h : Heap) (R : List Nat) (B : Nat), Inv h (xs ++ R) B →
      Released D h R B (xs.foldlM (fun h y => decref D h y) h)
  | [], h, R, B, iv => ⟨iv, Sub.refl h, Nat.le_refl _⟩
  | x :: xs, h, R, B, iv => by
    have h1 := ih h x (xs ++ R) B iv
    simp only [List.foldlM_cons, bind, Except.bind]
    revert h1
    rcases decref D h x with u | h'
    · exact fun h1 => h1
    · intro h1
      exact (releases ih xs h' R B h1.1).mono h1.2.1 h1.2.2

theorem decref_spec : ∀ (D : Nat) (h : Heap) (x : Nat) (R : List Nat) (B : Nat), Inv h (x :: R) B →
    Released D h R B (decref D h x)
  | 0, h, x, R, B, iv => .inl ⟨rfl, by omega⟩
  | D + 1, h, x, R, B, iv => by
    obtain ⟨c, hc⟩ := iv.lives (x := x) (by simp)
    have hlt := iv.lt hc
    have hpos := iv.pos x c hc
    unfold decref
    simp only [hc]
    by_cases h1 : 1 < c.rc
    · rw [if_pos h1]
      refine ⟨⟨fun y => ?_, fun y d hd => ?_, fun y hy => ?_, ?_, fun y d hd hb' => ?_⟩, ⟨rfl, fun y d hd => ?_⟩, ?_⟩
      · have e1 := inner_upd h x (some { c with rc := c.rc - 1 }) h.blocks y hlt
        have e2 := iv.count y
        rw [hc] at e1
        simp only [refsOf_some, Cell.refs] at e1
        simp only [Heap.put, List.count_cons] at e1 e2 ⊢
        by_cases hy : y = x
        · subst hy
          rw [hc] at e2
          simp only [rcOf_some, if_true, beq_self_eq_true, upd_self] at e2 ⊢
          omega
        · have : (x == y) = false := by simp; omega
          simp only [this, Bool.false_eq_true, if_false] at e2
          simp only [upd_ne _ _ hy]
          omega
      · simp only [Heap.put, upd] at hd
        split at hd
        · cases hd; simp only; omega
        · exact iv.pos y d hd
      · simp only [Heap.put, upd]
        rw [if_neg (by intro h'; subst h'; simp only [Heap.put] at hy; omega)]
        exact iv.bound y hy
      · have e1 := blocks_upd h x (some { c with rc := c.rc - 1 }) hlt
        have := iv.blocks
        rw [hc] at e1
        simp only [blocksOf_some] at e1
        simp only [Heap.put]
        omega
      · simp only [Heap.put, upd] at hd
        split at hd
        · rename_i hy; subst hy; cases hd; exact iv.zero y c hc hb'
        · exact iv.zero y d hd hb'
      · simp only [Heap.put, upd] at hd
        split at hd
        · rename_i hy; subst hy; cases hd; exact ⟨c, hc, rfl, rfl, rfl⟩
        · exact ⟨d, hd, rfl, rfl, rfl⟩
      · have := live_upd h x (some { c with rc := c.rc - 1 }) h.blocks hlt
        rw [hc] at this
        simp only [alive_some] at this
        simp only [Heap.put]
        omega
    · rw [if_neg h1]
      by_cases hz : (c.cls.linked && c.body == .zero) = true
      · rw [if_pos hz]
        simp only [Bool.and_eq_true, beq_iff_eq] at hz
        exact .inr ⟨rfl, fun m => m x c hc hz.1 hz.2⟩
      · rw [if_neg hz]
        have hcx := iv.count x
        rw [hc] at hcx
        simp only [rcOf_some, List.count_cons, beq_self_eq_true, if_true] at hcx
        have hl := live_upd h x none (h.blocks - c.blocks) hlt
        rw [hc] at hl
        simp only [alive_some, alive_none] at hl
        have hs : Sub { h with cells := upd h.cells x none, blocks := h.blocks - c.blocks } h := by
          refine ⟨rfl, fun y d hd => ?_⟩
          simp only [upd] at hd
          split at hd
          · cases hd
          · exact ⟨d, hd, rfl, rfl, rfl⟩
        have iv1 : Inv { h with cells := upd h.cells x none, blocks := h.blocks - c.blocks } (c.refs ++ R) B := by
          refine ⟨fun y => ?_, fun y d hd => ?_, fun y hy => ?_, ?_, fun y d hd hb' => ?_⟩
          · have e1 := inner_upd h x none (h.blocks - c.blocks) y hlt
            have e2 := iv.count y
            rw [hc] at e1
            simp only [refsOf_some, refsOf_none, List.count_nil] at e1
            simp only [List.count_append]
            by_cases hy : y = x
            · subst hy
              simp only [upd_self, rcOf_none]
              omega
            · have : (x == y) = false := by simp; omega
              simp only [List.count_cons, this, Bool.false_eq_true, if_false] at e2
              simp only [upd_ne _ _ hy]
              omega
          · simp only [upd] at hd
            split at hd
            · cases hd
            · exact iv.pos y d hd
          · simp only [upd]
            split
            · rfl
            · exact iv.bound y hy
          · have e1 := blocks_upd h x none hlt
            have := iv.blocks
            rw [hc] at e1
            simp only [blocksOf_some, blocksOf_none] at e1
            show h.blocks - c.blocks = total (fun j => blocksOf (upd h.cells x none j)) h.next + B
            omega
          · simp only [upd] at hd
            split at hd
            · cases hd
            · exact iv.zero y d hd hb'
        have := releases (decref_spec D) c.refs _ R B iv1
        revert this
        generalize c.refs.foldlM (fun h y => decref D h y)
          { h with cells := upd h.cells x none, blocks := h.blocks - c.blocks } = r
        intro this
        match r with
        | .ok h' => exact ⟨this.1, this.2.1.trans hs, by have := this.2.2; omega⟩
        | .error u =>
          rcases this with ⟨e, hd⟩ | ⟨e, hm⟩
          · exact .inl ⟨e, by omega⟩
          · exact .inr ⟨e, fun m => hm (hs.made m)⟩

end Verif.Life
