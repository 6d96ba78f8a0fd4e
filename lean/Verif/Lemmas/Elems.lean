import Verif.Model.Elems
import Verif.Spec.Elems
import Mathlib.Tactic.SplitIfs
import Mathlib.Tactic.Tauto

/-! # Object lists whose elements have methods -/

namespace Verif.Elems

@[simp] theorem put_self {β : Type} (f : Nat → β) (a : Nat) (b : β) : put f a b a = b := by simp [put]

theorem put_ne {β : Type} (f : Nat → β) {a x : Nat} (b : β) (h : x ≠ a) : put f a b x = f x := by simp [put, h]

/-- What Python code sees of the list `es` in the world `w`. -/
def view (w : World) (es : List Nat) : Spec.View := ⟨es, w.ext, w.gone⟩

/-- The same list up to cells and counts. -/
structure Frame (w w' : World) : Prop where
  cells : w'.cells = w.cells
  fresh : w'.fresh = w.fresh
  spare : w'.spare = w.spare

theorem release_away {f : Nat → Effect} {env : Env} (he : env.del = away f) {x : Nat} {w : World} {xs es : List Nat}
    (hh : ∀ y, w.held y = (x :: xs).count y + es.count y) :
    ∃ w', release env x w = .ok w' ∧ Frame w w' ∧ w'.mem = w.mem ∧ (∀ y, w'.held y = xs.count y + es.count y) ∧
      view w' es = (if w.ext x = 0 ∧ x ∉ xs ∧ x ∉ es then Spec.away f x { view w es with gone := w.gone ++ [x] } else view w es) := by
  have hx : w.held x = xs.count x + 1 + es.count x := by rw [hh]; simp
  have hh' : ∀ y, put w.held x (w.held x - 1) y = xs.count y + es.count y := by
    intro y
    by_cases c : y = x
    · subst c; rw [put_self, hx]; omega
    · rw [put_ne _ _ c, hh, List.count_cons_of_ne (Ne.symm c)]
  unfold release
  rw [if_neg (by omega)]
  have hc : w.held x - 1 + w.ext x = 0 ↔ w.ext x = 0 ∧ x ∉ xs ∧ x ∉ es := by
    rw [hx, ← List.count_eq_zero, ← List.count_eq_zero (l := es)]
    omega
  by_cases c : w.held x - 1 + w.ext x = 0
  · rw [if_pos c, if_pos (hc.mp c), he]
    exact ⟨_, rfl, ⟨rfl, rfl, rfl⟩, rfl, hh', rfl⟩
  · rw [if_neg c, if_neg (fun h => c (hc.mpr h))]
    exact ⟨_, rfl, ⟨rfl, rfl, rfl⟩, rfl, hh', rfl⟩

theorem safeDecref_away {f : Nat → Effect} {env : Env} (he : env.del = away f) {a x : Nat} {w : World} {xs es : List Nat}
    (ha : w.mem a = some (some x)) (hh : ∀ y, w.held y = (x :: xs).count y + es.count y) :
    ∃ w', safeDecref env a w = .ok w' ∧ Frame w w' ∧ w'.mem = put w.mem a (some none) ∧
      (∀ y, w'.held y = xs.count y + es.count y) ∧
      view w' es = (if w.ext x = 0 ∧ x ∉ xs ∧ x ∉ es then Spec.away f x { view w es with gone := w.gone ++ [x] } else view w es) := by
  obtain ⟨w', e, fr, hm, h1, h2⟩ := release_away he hh
  refine ⟨{ w' with mem := put w'.mem a (some none) }, ?_, ⟨fr.cells, fr.fresh, fr.spare⟩, by rw [hm], h1, h2⟩
  unfold safeDecref
  rw [ha]
  simp only [e]
  rw [hm, ha]

theorem map_congr_mem {m m' : Nat → Option (Option Nat)} {l : List Nat} (h : ∀ a ∈ l, m' a = m a) : l.map m' = l.map m :=
  List.map_congr_left h

theorem decrefAll_away {f : Nat → Effect} {env : Env} (he : env.del = away f) {es : List Nat} :
    ∀ {as xs : List Nat} {w : World}, as.Nodup → as.map w.mem = xs.map (fun x => some (some x)) →
    (∀ y, w.held y = xs.count y + es.count y) →
    ∃ w', decrefAll env as w = .ok w' ∧ Frame w w' ∧ (∀ a, w'.mem a = if a ∈ as then some none else w.mem a) ∧
      (∀ y, w'.held y = es.count y) ∧ view w' es = Spec.drop (Spec.away f) xs (view w es) := by
  intro as
  induction as with
  | nil =>
    intro xs w _ hm hh
    have : xs = [] := by simpa using hm.symm
    subst this
    exact ⟨w, rfl, ⟨rfl, rfl, rfl⟩, by simp, by simpa using hh, rfl⟩
  | cons a as ih =>
    intro xs w hd hm hh
    cases xs with
    | nil => simp at hm
    | cons x xs =>
      simp only [List.map_cons, List.cons.injEq] at hm
      obtain ⟨w1, e1, f1, m1, h1, v1⟩ := safeDecref_away he hm.1 hh
      have hd' := List.nodup_cons.mp hd
      obtain ⟨w2, e2, f2, m2, h2, v2⟩ := ih (xs := xs) (w := w1) hd'.2
        (by
          rw [← hm.2]
          refine map_congr_mem ?_
          intro b hb
          rw [m1, put_ne _ _ (by rintro rfl; exact hd'.1 hb)]) h1
      refine ⟨w2, by rw [decrefAll, e1]; exact e2,
        ⟨by rw [f2.cells, f1.cells], by rw [f2.fresh, f1.fresh], by rw [f2.spare, f1.spare]⟩, ?_, h2, ?_⟩
      · intro b
        rw [m2, m1]
        by_cases c : b = a
        · subst c; simp
        · simp [put_ne _ _ c, c]
      · rw [v2, v1, Spec.drop]
        rfl

theorem following_append {a : Nat} {l r : List Nat} (h : a ∉ l) : following a (l ++ a :: r) = r.head? := by
  induction l with
  | nil => simp [following]
  | cons b l ih =>
    simp only [List.mem_cons, not_or] at h
    simp [following, Ne.symm h.1, ih h.2]

theorem walk_away {f : Nat → Effect} {env : Env} (he : env.del = away f) {es : List Nat} :
    ∀ {as xs pre : List Nat} {w : World} {k : Nat}, w.cells = pre ++ as → (pre ++ as).Nodup →
    as.map w.mem = xs.map (fun x => some (some x)) → (∀ y, w.held y = xs.count y + es.count y) → as.length ≤ k →
    ∃ w', walk env k as.head? w = some (.ok w') ∧ Frame w w' ∧ (∀ a, w'.mem a = if a ∈ as then some none else w.mem a) ∧
      (∀ y, w'.held y = es.count y) ∧ view w' es = Spec.drop (Spec.away f) xs (view w es) := by
  intro as
  induction as with
  | nil =>
    intro xs pre w k _ _ hm hh _
    have : xs = [] := by simpa using hm.symm
    subst this
    exact ⟨w, by simp [walk], ⟨rfl, rfl, rfl⟩, by simp, by simpa using hh, rfl⟩
  | cons a as ih =>
    intro xs pre w k hc hd hm hh hk
    cases xs with
    | nil => simp at hm
    | cons x xs =>
      cases k with
      | zero => simp at hk
      | succ k =>
        simp only [List.map_cons, List.cons.injEq] at hm
        obtain ⟨w1, e1, f1, m1, h1, v1⟩ := safeDecref_away he hm.1 hh
        have hd' := List.nodup_append.mp hd
        have hpre : a ∉ pre := fun h => hd'.2.2 a h a (by simp) rfl
        have has : a ∉ as := (List.nodup_cons.mp hd'.2.1).1
        obtain ⟨w2, e2, f2, m2, h2, v2⟩ := ih (xs := xs) (pre := pre ++ [a]) (w := w1) (k := k)
          (by rw [f1.cells, hc]; simp) (by simpa using hd)
          (by
            rw [← hm.2]
            refine map_congr_mem ?_
            intro b hb
            rw [m1, put_ne _ _ (by rintro rfl; exact has hb)]) h1 (by simpa using hk)
        refine ⟨w2, ?_, ⟨by rw [f2.cells, f1.cells], by rw [f2.fresh, f1.fresh], by rw [f2.spare, f1.spare]⟩, ?_, h2, ?_⟩
        · rw [List.head?_cons, walk, e1]
          simp only
          rw [f1.cells, hc, if_pos (by simp), following_append hpre]
          exact e2
        · intro b
          rw [m2, m1]
          by_cases c : b = a
          · subst c; simp
          · simp [put_ne _ _ c, c]
        · rw [v2, v1, Spec.drop]
          rfl

theorem empty_atRest {w : World} (h : ∀ x, w.held x = 0) : AtRest (empty w) [] :=
  ⟨rfl, by simp [empty], by simp [empty], by simpa [empty] using h⟩

/-- `clear` while a running method holds references to the objects `es`. -/
theorem clear_busy {f : Nat → Effect} {env : Env} (he : env.del = away f) {s : Shape} {w : World} {xs es : List Nat} {k : Nat}
    (hm : w.cells.map w.mem = xs.map fun x => some (some x)) (hn : w.cells.Nodup)
    (hh : ∀ y, w.held y = xs.count y + es.count y) (hk : xs.length ≤ k) :
    ∃ w', clear env k s w = some (.ok w') ∧ w'.cells = [] ∧ (∀ a ∈ w.cells, w'.mem a = none) ∧
      (∀ y, w'.held y = es.count y) ∧ view w' es = Spec.drop (Spec.away f) xs (view w es) := by
  have hlen : w.cells.length = xs.length := by simpa using congrArg List.length hm
  cases s with
  | array =>
    obtain ⟨w1, e1, f1, _, h1, v1⟩ := decrefAll_away he (es := es) hn hm hh
    refine ⟨empty w1, by simp only [clear, e1], rfl, fun a ha => ?_, h1, v1⟩
    simp only [empty]
    rw [if_pos (by rw [f1.cells]; exact ha)]
  | linked =>
    obtain ⟨w1, e1, f1, _, h1, v1⟩ := walk_away he (es := es) (pre := []) (k := k) (w := w) (as := w.cells) (by simp)
      (by simpa using hn) hm hh (by omega)
    refine ⟨empty w1, by simp only [clear, e1], rfl, fun a ha => ?_, h1, v1⟩
    simp only [empty]
    rw [if_pos (by rw [f1.cells]; exact ha)]

theorem drop_still : ∀ (xs : List Nat) (v : Spec.View), (Spec.drop (Spec.away fun _ e => e) xs v).ext = v.ext := by
  intro xs
  induction xs with
  | nil => intro v; rfl
  | cons x xs ih =>
    intro v
    rw [Spec.drop, ih]
    split <;> rfl

theorem clear_away {f : Nat → Effect} {env : Env} (he : env.del = away f) {s : Shape} {w : World} {xs : List Nat} {k : Nat}
    (h : AtRest w xs) (hk : xs.length ≤ k) :
    ∃ w', clear env k s w = some (.ok w') ∧ AtRest w' [] ∧ view w' [] = Spec.clear (Spec.away f) (view w xs) := by
  have hlen : w.cells.length = xs.length := by simpa using congrArg List.length h.mem
  cases s with
  | array =>
    obtain ⟨w1, e1, _, _, h1, v1⟩ := decrefAll_away he (es := []) h.nodup h.mem (by simpa using h.held)
    exact ⟨empty w1, by simp only [clear, e1], empty_atRest (by simpa using h1), v1⟩
  | linked =>
    obtain ⟨w1, e1, _, _, h1, v1⟩ := walk_away he (es := []) (pre := []) (k := k) (w := w) (as := w.cells) (by simp) (by simpa using h.nodup)
      h.mem (by simpa using h.held) (by omega)
    exact ⟨empty w1, by simp only [clear, e1], empty_atRest (by simpa using h1), v1⟩

theorem fill_other {a : Nat} : ∀ {as : List Nat} {cs : List (Option (Option Nat))} {m : Nat → Option (Option Nat)}, a ∉ as →
    fill m as cs a = m a := by
  intro as
  induction as with
  | nil => intro cs m _; cases cs <;> rfl
  | cons b as ih =>
    intro cs m h
    simp only [List.mem_cons, not_or] at h
    cases cs with
    | nil => rfl
    | cons c cs => rw [fill, ih h.2, put_ne _ _ h.1]

theorem fill_map : ∀ {as : List Nat} {cs : List (Option (Option Nat))} {m : Nat → Option (Option Nat)}, as.Nodup →
    as.length = cs.length → as.map (fill m as cs) = cs := by
  intro as
  induction as with
  | nil => intro cs m _ h; cases cs with | nil => rfl | cons => simp at h
  | cons a as ih =>
    intro cs m hd h
    cases cs with
    | nil => simp at h
    | cons c cs =>
      have hd' := List.nodup_cons.mp hd
      simp only [List.map_cons, fill, fill_other hd'.1, put_self]
      rw [ih hd'.2 (by simpa using h)]

theorem map_split {l r : List Nat} {m : Nat → Option (Option Nat)} {xs : List Nat}
    (h : (l ++ r).map m = xs.map fun x => some (some x)) :
    l.map m = (xs.take l.length).map (fun x => some (some x)) ∧ r.map m = (xs.drop l.length).map fun x => some (some x) := by
  rw [List.map_append] at h
  constructor
  · have := congrArg (List.take l.length) h
    rw [List.take_left' (by simp), ← List.map_take] at this
    exact this
  · have := congrArg (List.drop l.length) h
    rw [List.drop_left' (by simp), ← List.map_drop] at this
    exact this

theorem count_split (xs : List Nat) {i x : Nat} (hx : xs[i]? = some x) (y : Nat) :
    xs.count y = [x].count y + (xs.take i ++ xs.drop (i + 1)).count y := by
  have hi : i < xs.length := by
    rcases Nat.lt_or_ge i xs.length with h | h
    · exact h
    · rw [List.getElem?_eq_none h] at hx; simp at hx
  have e : xs = xs.take i ++ x :: xs.drop (i + 1) := by
    have : x = xs[i] := by rw [List.getElem?_eq_getElem hi] at hx; simpa using hx.symm
    rw [this, List.getElem_cons_drop, List.take_append_drop]
  conv => lhs; rw [e]
  simp only [List.count_append, List.count_cons, List.count_nil]
  omega

theorem delete_away {f : Nat → Effect} {env : Env} (he : env.del = away f) {s : Shape} {w : World} {xs : List Nat}
    (h : AtRest w xs) {index : Int} {i : Nat} (hi : i < xs.length)
    (hidx : index = i ∨ index = (i : Int) - xs.length) :
    ∃ w', delete env s index w = .ok (w', none) ∧ AtRest w' (xs.take i ++ xs.drop (i + 1)) ∧
      view w' (xs.take i ++ xs.drop (i + 1)) = Spec.delete (Spec.away f) i (view w xs) := by
  have hlen : w.cells.length = xs.length := by simpa using congrArg List.length h.mem
  obtain ⟨x, hx⟩ : ∃ x, xs[i]? = some x := ⟨xs[i], List.getElem?_eq_getElem hi⟩
  obtain ⟨a, ha⟩ : ∃ a, w.cells[i]? = some a := ⟨w.cells[i], List.getElem?_eq_getElem (by omega)⟩
  have hax : w.mem a = some (some x) := by
    have := congrArg (·[i]?) h.mem
    simpa [List.getElem?_map, ha, hx] using this
  obtain ⟨w1, e1, f1, m1, h1, v1⟩ := safeDecref_away he (xs := []) (es := xs.take i ++ xs.drop (i + 1)) hax
    (fun y => by rw [h.held]; exact count_split xs hx y)
  have hnorm : (if index < 0 then (w.cells.length : Int) + index else index) = i := by
    rcases hidx with e | e
    · rw [if_neg (by omega), e]
    · rw [if_pos (by omega), e]; omega
  have hcell : w.cells = w.cells.take i ++ a :: w.cells.drop (i + 1) := by
    have hi' : i < w.cells.length := by omega
    have : a = w.cells[i] := by rw [List.getElem?_eq_getElem hi'] at ha; simpa using ha.symm
    rw [this, List.getElem_cons_drop, List.take_append_drop]
  have hd := h.nodup
  rw [hcell] at hd
  have ha' : a ∉ w.cells.take i ++ w.cells.drop (i + 1) := (List.nodup_cons.mp (List.perm_middle.nodup_iff.mp hd)).1
  have hal : a ∉ w.cells.take i := fun hm => ha' (List.mem_append_left _ hm)
  have har : a ∉ w.cells.drop (i + 1) := fun hm => ha' (List.mem_append_right _ hm)
  have hl1 : (w.cells.take i).length = i := by simp; omega
  have hsplit := h.mem
  rw [hcell] at hsplit
  obtain ⟨sl, sr⟩ := map_split hsplit
  rw [hl1] at sl sr
  have sr' : (w.cells.drop (i + 1)).map w.mem = (xs.drop (i + 1)).map fun x => some (some x) := by
    have := congrArg List.tail sr
    simpa using this
  have hview : view w1 (xs.take i ++ xs.drop (i + 1)) = Spec.delete (Spec.away f) i (view w xs) := by
    have e : Spec.delete (Spec.away f) i (view w xs) =
        Spec.drop (Spec.away f) [x] (view w (xs.take i ++ xs.drop (i + 1))) := by simp only [Spec.delete, view, hx]
    rw [e, v1, Spec.drop, Spec.drop]
    rfl
  have e2 : delete env s index w =
      (match (match s with | .array => eraseAt i w1 | .linked => eraseNode a w1) with
        | .error u => .error u
        | .ok w => .ok (w, none)) := by
    simp only [delete, hnorm]
    rw [if_neg (by omega)]
    simp only [Int.toNat_natCast, ha, e1]
    cases s <;> rfl
  rw [e2]
  cases s with
  | linked =>
    have hmem : a ∈ w1.cells := by rw [f1.cells, hcell]; simp
    have her : w1.cells.erase a = w.cells.take i ++ w.cells.drop (i + 1) := by
      rw [f1.cells]
      conv => lhs; rw [hcell]
      rw [List.erase_append_right _ hal, List.erase_cons_head]
    simp only [eraseNode, if_pos hmem]
    refine ⟨_, rfl, ⟨?_, ?_, ?_, ?_⟩, hview⟩
    · simp only [her, m1]
      rw [List.map_append, List.map_append, ← sl, ← sr']
      congr 1
      · refine map_congr_mem ?_
        intro b hb
        have : b ≠ a := by rintro rfl; exact hal hb
        rw [put_ne _ _ this, put_ne _ _ this]
      · refine map_congr_mem ?_
        intro b hb
        have : b ≠ a := by rintro rfl; exact har hb
        rw [put_ne _ _ this, put_ne _ _ this]
    · simp only [her]
      exact (List.nodup_cons.mp (List.perm_middle.nodup_iff.mp hd)).2
    · intro b hb
      simp only [her] at hb
      show b < w1.fresh
      rw [f1.fresh]
      refine h.low b ?_
      rw [hcell]
      simp only [List.mem_append, List.mem_cons] at hb ⊢
      tauto
    · simpa using h1
  | array =>
    have hlt : i < w1.cells.length := by rw [f1.cells]; omega
    simp only [eraseAt, if_pos hlt]
    refine ⟨_, rfl, ⟨?_, ?_, ?_, ?_⟩, hview⟩
    · simp only [f1.cells, m1]
      have hdrop : w.cells.drop i = a :: w.cells.drop (i + 1) := by
        conv => lhs; rw [hcell]
        rw [List.drop_left' hl1]
      rw [hdrop]
      have hdl : w.cells.dropLast = w.cells.take i ++ (a :: w.cells.drop (i + 1)).dropLast := by
        conv => lhs; rw [hcell]
        rw [List.dropLast_append_of_ne_nil (by simp)]
      have hr : (w.cells.drop (i + 1)).map (put w.mem a (some none)) = (w.cells.drop (i + 1)).map w.mem := by
        refine map_congr_mem ?_
        intro b hb
        exact put_ne _ _ (by rintro rfl; exact har hb)
      rw [hr, hdl, List.map_append, List.map_append, ← sl, ← sr']
      congr 1
      · refine map_congr_mem ?_
        intro b hb
        have hb1 : b ∉ a :: w.cells.drop (i + 1) := by
          intro hm
          exact (List.nodup_append.mp hd).2.2 b hb b hm rfl
        rw [fill_other hb1, put_ne _ _ (by rintro rfl; exact hal hb)]
      · rw [List.map_dropLast, fill_map (List.nodup_append.mp hd).2.1 (by simp)]
        simp
    · simp only [f1.cells]
      exact h.nodup.sublist (List.dropLast_sublist _)
    · intro b hb
      simp only [f1.cells] at hb
      show b < w1.fresh
      rw [f1.fresh]
      exact h.low b ((List.dropLast_sublist _).subset hb)
    · simpa using h1

theorem delete_range {env : Env} {s : Shape} {w : World} {xs : List Nat} (h : AtRest w xs) {index : Int}
    (hi : index < -xs.length ∨ (xs.length : Int) ≤ index) : delete env s index w = .ok (w, some .indexError) := by
  have hlen : w.cells.length = xs.length := by simpa using congrArg List.length h.mem
  simp only [delete]
  rw [if_pos]
  split_ifs <;> omega

/-! ### Slice assignment -/

theorem drop_pos {del : Spec.Dels} {x : Nat} {xs : List Nat} {v : Spec.View} (h : v.ext x = 0 ∧ x ∉ xs ∧ x ∉ v.elems) :
    Spec.drop del (x :: xs) v = Spec.drop del xs (del x { v with gone := v.gone ++ [x] }) := by
  rw [Spec.drop, if_pos h]

theorem drop_neg {del : Spec.Dels} {x : Nat} {xs : List Nat} {v : Spec.View} (h : ¬ (v.ext x = 0 ∧ x ∉ xs ∧ x ∉ v.elems)) :
    Spec.drop del (x :: xs) v = Spec.drop del xs v := by
  rw [Spec.drop, if_neg h]

theorem copyRefs_away {f : Nat → Effect} {env : Env} (he : env.del = away f) {es : List Nat} :
    ∀ {as xs ys : List Nat} {w : World}, as.Nodup → as.map w.mem = xs.map (fun x => some (some x)) → ys.length = as.length →
    (∀ y, w.held y = xs.count y + es.count y) → (∀ y ∈ ys, 1 ≤ w.ext y) →
    (∀ x e y, y ∈ ys → 1 ≤ e y → 1 ≤ f x e y) →
    ∃ w', copyRefs env as ys w = .ok w' ∧ Frame w w' ∧ (∀ a, w'.mem a = if a ∈ as then some none else w.mem a) ∧
      (∀ y, w'.held y = es.count y + ys.count y) ∧
      ∀ zs, (∀ y, y ∈ zs ↔ y ∈ es ∨ y ∈ ys) → view w' zs = Spec.drop (Spec.away f) xs (view w zs) := by
  intro as
  induction as generalizing es with
  | nil =>
    intro xs ys w _ hm hl hh _ _
    have : xs = [] := by simpa using hm.symm
    subst this
    have : ys = [] := by simpa using hl
    subst this
    exact ⟨w, rfl, ⟨rfl, rfl, rfl⟩, by simp, by simpa using hh, fun _ _ => rfl⟩
  | cons a as ih =>
    intro xs ys w hd hm hl hh hy hf
    cases xs with
    | nil => simp at hm
    | cons x xs =>
      cases ys with
      | nil => simp at hl
      | cons y ys =>
        simp only [List.map_cons, List.cons.injEq] at hm
        obtain ⟨w1, e1, f1, m1, h1, v1⟩ := safeDecref_away he hm.1 hh
        have hd' := List.nodup_cons.mp hd
        have hext : w1.ext = if w.ext x = 0 ∧ x ∉ xs ∧ x ∉ es then f x w.ext else w.ext := by
          have := congrArg Spec.View.ext v1
          simp only [view] at this
          rw [this]
          split_ifs <;> rfl
        have hy1 : ∀ z ∈ y :: ys, 1 ≤ w1.ext z := by
          intro z hz
          rw [hext]
          split_ifs
          · exact hf _ _ _ hz (hy z hz)
          · exact hy z hz
        obtain ⟨w2, e2, f2, m2, h2, v2⟩ := ih (es := y :: es) (xs := xs) (ys := ys)
          (w := { w1 with held := put w1.held y (w1.held y + 1) }) hd'.2
          (by
            rw [← hm.2]
            refine map_congr_mem ?_
            intro b hb
            show w1.mem b = w.mem b
            rw [m1, put_ne _ _ (by rintro rfl; exact hd'.1 hb)])
          (by simpa using hl)
          (by
            intro z
            show put w1.held y (w1.held y + 1) z = _
            by_cases c : z = y
            · subst c; rw [put_self, h1]; simp; omega
            · rw [put_ne _ _ c, h1, List.count_cons_of_ne (Ne.symm c)])
          (fun z hz => hy1 z (List.mem_cons_of_mem _ hz))
          (fun u e z hz => hf u e z (List.mem_cons_of_mem _ hz))
        refine ⟨w2, by rw [copyRefs, e1]; exact e2,
          ⟨by rw [f2.cells]; exact f1.cells, by rw [f2.fresh]; exact f1.fresh, by rw [f2.spare]; exact f1.spare⟩, ?_, ?_, ?_⟩
        · intro b
          rw [m2]
          show (if b ∈ as then some none else w1.mem b) = _
          rw [m1]
          by_cases c : b = a
          · subst c; simp
          · simp [put_ne _ _ c, c]
        · intro z
          rw [h2]
          simp only [List.count_cons]
          omega
        · intro zs hzs
          have hcond : (w.ext x = 0 ∧ x ∉ xs ∧ x ∉ es) ↔ (w.ext x = 0 ∧ x ∉ xs ∧ x ∉ zs) := by
            constructor
            · rintro ⟨h1, h2, h3⟩
              refine ⟨h1, h2, ?_⟩
              rw [hzs]
              rintro (h | h)
              · exact h3 h
              · have := hy x h; omega
            · rintro ⟨h1, h2, h3⟩
              exact ⟨h1, h2, fun h => h3 ((hzs x).mpr (.inl h))⟩
          have he1 := congrArg Spec.View.ext v1
          have he2 := congrArg Spec.View.gone v1
          simp only [view] at he1 he2
          rw [v2 zs (by intro z; rw [hzs]; simp only [List.mem_cons]; tauto)]
          by_cases c : w.ext x = 0 ∧ x ∉ xs ∧ x ∉ es
          · rw [if_pos c] at he1 he2
            rw [drop_pos (v := view w zs) (hcond.mp c)]
            simp only [view, he1, he2, Spec.away]
          · rw [if_neg c] at he1 he2
            rw [drop_neg (v := view w zs) (fun h => c (hcond.mpr h))]
            simp only [view, he1, he2]

theorem copyCells_ok : ∀ {as ys : List Nat} {w : World}, as.Nodup → ys.length = as.length → (∀ a ∈ as, w.mem a ≠ none) →
    ∃ m, copyCells as ys w = .ok { w with mem := m } ∧ as.map m = ys.map (fun y => some (some y)) ∧
      ∀ a, a ∉ as → m a = w.mem a := by
  intro as
  induction as with
  | nil =>
    intro ys w _ hl _
    have : ys = [] := by simpa using hl
    subst this
    exact ⟨w.mem, rfl, rfl, fun _ _ => rfl⟩
  | cons a as ih =>
    intro ys w hd hl hm
    cases ys with
    | nil => simp at hl
    | cons y ys =>
      have hd' := List.nodup_cons.mp hd
      obtain ⟨m, e, h1, h2⟩ := ih (ys := ys) (w := { w with mem := put w.mem a (some (some y)) }) hd'.2 (by simpa using hl)
        (by
          intro b hb
          show put w.mem a (some (some y)) b ≠ none
          rw [put_ne _ _ (by rintro rfl; exact hd'.1 hb)]
          exact hm b (List.mem_cons_of_mem _ hb))
      refine ⟨m, ?_, ?_, ?_⟩
      · rw [copyCells]
        rcases hc : w.mem a with _ | c
        · exact absurd hc (hm a (by simp))
        · exact e
      · simp only [List.map_cons]
        rw [h1, h2 a hd'.1]
        show put w.mem a (some (some y)) a :: _ = _
        rw [put_self]
      · intro b hb
        simp only [List.mem_cons, not_or] at hb
        rw [h2 b hb.2]
        exact put_ne _ _ hb.1

theorem setSlice_away {f : Nat → Effect} {env : Env} (he : env.del = away f) {w : World} {xs ys : List Nat}
    (h : AtRest w xs) {i : Nat} (hi : i + ys.length ≤ xs.length) (hy : ∀ y ∈ ys, 1 ≤ w.ext y)
    (hf : ∀ x e y, y ∈ ys → 1 ≤ e y → 1 ≤ f x e y) :
    ∃ w', setSlice env i ys w = .ok w' ∧ AtRest w' (xs.take i ++ ys ++ xs.drop (i + ys.length)) ∧
      view w' (xs.take i ++ ys ++ xs.drop (i + ys.length)) = Spec.setSlice (Spec.away f) i ys (view w xs) := by
  have hlen : w.cells.length = xs.length := by simpa using congrArg List.length h.mem
  have hcells : w.cells = w.cells.take i ++ ((w.cells.drop i).take ys.length ++ w.cells.drop (i + ys.length)) := by
    rw [← List.drop_drop, List.take_append_drop, List.take_append_drop]
  have hxs : xs = xs.take i ++ ((xs.drop i).take ys.length ++ xs.drop (i + ys.length)) := by
    rw [← List.drop_drop, List.take_append_drop, List.take_append_drop]
  have hd := h.nodup
  rw [hcells] at hd
  have hd1 := List.nodup_append.mp hd
  have hd2 := List.nodup_append.mp hd1.2.1
  have m1 : (w.cells.take i).map w.mem = (xs.take i).map fun x => some (some x) := by
    rw [List.map_take, h.mem, ← List.map_take]
  have m2 : ((w.cells.drop i).take ys.length).map w.mem = ((xs.drop i).take ys.length).map fun x => some (some x) := by
    rw [List.map_take, List.map_drop, h.mem, ← List.map_drop, ← List.map_take]
  have m3 : (w.cells.drop (i + ys.length)).map w.mem = (xs.drop (i + ys.length)).map fun x => some (some x) := by
    rw [List.map_drop, h.mem, ← List.map_drop]
  obtain ⟨w1, e1, f1, mm, h1, v1⟩ := copyRefs_away he (es := xs.take i ++ xs.drop (i + ys.length)) (ys := ys) (w := w) hd2.1 m2
    (by simp; omega)
    (by
      intro y
      rw [h.held]
      conv => lhs; rw [hxs]
      simp only [List.count_append]
      omega) hy hf
  obtain ⟨m, e2, c1, c2⟩ := copyCells_ok (as := (w.cells.drop i).take ys.length) (ys := ys) (w := w1) hd2.1 (by simp; omega)
    (by intro a ha; rw [mm, if_pos ha]; simp)
  refine ⟨_, by rw [setSlice, e1]; exact e2, ⟨?_, ?_, ?_, ?_⟩, ?_⟩
  · show w1.cells.map m = _
    rw [f1.cells]
    conv => lhs; rw [hcells]
    rw [List.map_append, List.map_append, List.map_append, List.map_append, c1, ← m1, ← m3, List.append_assoc]
    congr 1
    · refine map_congr_mem ?_
      intro a ha
      have : a ∉ (w.cells.drop i).take ys.length := fun hm => hd1.2.2 a ha a (List.mem_append_left _ hm) rfl
      rw [c2 a this, mm, if_neg this]
    · congr 1
      refine map_congr_mem ?_
      intro a ha
      have : a ∉ (w.cells.drop i).take ys.length := fun hm => hd2.2.2 a hm a ha rfl
      rw [c2 a this, mm, if_neg this]
  · show w1.cells.Nodup
    rw [f1.cells]; exact h.nodup
  · intro a ha
    show a < w1.fresh
    rw [f1.fresh]
    exact h.low a (by rw [← f1.cells]; exact ha)
  · intro y
    show w1.held y = _
    rw [h1]
    simp only [List.count_append]
    omega
  · have := v1 (xs.take i ++ ys ++ xs.drop (i + ys.length)) (by intro y; simp only [List.mem_append]; tauto)
    simpa [view, Spec.setSlice] using this

/-! ### Comparison -/

/-- Elements that answer as `P` says, and otherwise do not touch the list. -/
structure Answers (env : Env) (f : Nat → Effect) (g : Rel → Nat → Nat → Effect) (P : Rel → Nat → Nat → Reply) : Prop where
  del : env.del = away f
  cmp : ∀ r x y w, env.cmp r x y w = .ok ({ w with ext := g r x y w.ext }, P r x y)

theorem rich_answers {env : Env} {f : Nat → Effect} {g : Rel → Nat → Nat → Effect} {P : Rel → Nat → Nat → Reply}
    (ha : Answers env f g P) {r : Rel} {x y : Nat} {w : World} (hx : w.held x ≠ 0) :
    ∃ e, rich env r x y w = .ok ({ w with ext := e }, if x = y then .ok (r == .eq) else Spec.resolve P r x y) := by
  unfold rich
  by_cases c : x = y
  · rw [if_pos c, if_pos c]
    exact ⟨w.ext, rfl⟩
  · rw [if_neg c, if_neg c, ha.cmp]
    unfold Spec.resolve
    rcases h1 : P r x y with b | e | _
    · exact ⟨_, rfl⟩
    · exact ⟨_, rfl⟩
    · simp only
      rw [if_neg (by omega), ha.cmp]
      rcases h2 : P r y x with b | e | _
      · exact ⟨_, rfl⟩
      · exact ⟨_, rfl⟩
      · refine ⟨g r y x (g r x y w.ext), ?_⟩
        cases r <;> rfl

theorem atRest_of {w w' : World} {xs : List Nat} (h : AtRest w xs) (f : Frame w w') (hm : w'.mem = w.mem)
    (hh : ∀ y, w'.held y = w.held y) : AtRest w' xs :=
  ⟨by rw [f.cells, hm]; exact h.mem, by rw [f.cells]; exact h.nodup, by rw [f.cells, f.fresh]; exact h.low,
    fun y => by rw [hh]; exact h.held y⟩

theorem compareLoop_answers {env : Env} {f : Nat → Effect} {g : Rel → Nat → Nat → Effect} {P : Rel → Nat → Nat → Reply}
    (ha : Answers env f g P) {s : Shape} {r : Rel} : ∀ {ys pre xs as bs : List Nat} {w : World}, AtRest w (pre ++ xs) →
    w.cells = as ++ bs → as.length = pre.length → ys.length = xs.length →
    ∃ w', compareLoop env s r pre.length bs.head? ys w = .ok (w', Spec.compare (Spec.resolve P r) r xs ys) ∧
      AtRest w' (pre ++ xs) := by
  intro ys
  induction ys with
  | nil =>
    intro pre xs as bs w h _ _ hl
    have : xs = [] := by simpa using hl.symm
    subst this
    refine ⟨w, ?_, h⟩
    cases r <;> rfl
  | cons y ys ih =>
    intro pre xs as bs w h hc hal hl
    cases xs with
    | nil => simp at hl
    | cons x xs =>
      have hlen : w.cells.length = (pre ++ x :: xs).length := by simpa using congrArg List.length h.mem
      cases bs with
      | nil =>
        rw [hc] at hlen
        simp at hlen
        omega
      | cons b bs =>
        have hm := h.mem
        rw [hc] at hm
        have hbx : w.mem b = some (some x) := by
          obtain ⟨_, h2⟩ := map_split hm
          rw [hal, List.drop_left' rfl] at h2
          simp only [List.map_cons, List.cons.injEq] at h2
          exact h2.1
        have hcur : ∀ v : World, v.cells = w.cells → v.mem = w.mem → current s pre.length (b :: bs).head? v = .ok x := by
          intro v h1 h2
          cases s with
          | array =>
            simp only [current]
            rw [h1, hc, ← hal, List.getElem?_append_right (Nat.le_refl _)]
            simp [h2, hbx]
          | linked => simp [current, h2, hbx]
        have hheld : (put w.held y (w.held y + 1)) x ≠ 0 := by
          have : w.held x ≠ 0 := by
            rw [h.held]
            have : x ∈ pre ++ x :: xs := by simp
            have := List.count_pos_iff.mpr this
            omega
          by_cases c : x = y
          · subst c; simp
          · rw [put_ne _ _ c]; exact this
        obtain ⟨e, hr⟩ := rich_answers ha (r := r) (x := x) (y := y)
          (w := { w with held := put w.held y (w.held y + 1) }) hheld
        obtain ⟨w1, e1, f1, mm, h1, _⟩ := release_away ha.del (x := y) (xs := []) (es := pre ++ x :: xs)
          (w := { w with held := put w.held y (w.held y + 1), ext := e })
          (by
            intro z
            show put w.held y (w.held y + 1) z = _
            by_cases c : z = y
            · subst c; rw [put_self, h.held]; simp; omega
            · rw [put_ne _ _ c, h.held, List.count_cons_of_ne (Ne.symm c)]; simp)
        have hrest : AtRest w1 (pre ++ x :: xs) :=
          ⟨by rw [f1.cells, mm]; exact h.mem, by rw [f1.cells]; exact h.nodup, by rw [f1.cells, f1.fresh]; exact h.low,
            fun z => by rw [h1]; simp⟩
        have hnb : b ∉ as := by
          have hd := h.nodup
          rw [hc] at hd
          exact fun hm => (List.nodup_append.mp hd).2.2 b hm b (by simp) rfl
        have hadv : ∃ it, advance s (b :: bs).head? w1 = .ok it ∧ (s = .linked → it = bs.head?) := by
          cases s with
          | array => exact ⟨_, rfl, fun h => by cases h⟩
          | linked =>
            refine ⟨bs.head?, ?_, fun _ => rfl⟩
            have hc1 : w1.cells = as ++ b :: bs := by rw [f1.cells]; exact hc
            simp only [advance, List.head?_cons]
            rw [hc1, if_pos (by simp), following_append hnb]
        obtain ⟨it, hit, hit'⟩ := hadv
        obtain ⟨w2, e2, h2⟩ := ih (pre := pre ++ [x]) (xs := xs) (as := as ++ [b]) (bs := bs) (w := w1) (by simpa using hrest)
          (by rw [f1.cells]; simpa using hc) (by simp [hal]) (by simpa using hl)
        have hloop : compareLoop env s r (pre.length + 1) it ys w1 =
            compareLoop env s r (pre ++ [x]).length bs.head? ys w1 := by
          rw [List.length_append, List.length_singleton]
          cases s with
          | linked => rw [hit' rfl]
          | array =>
            have key : ∀ (zs : List Nat) (k : Nat) (i1 i2 : Option Nat) (v : World),
                compareLoop env .array r k i1 zs v = compareLoop env .array r k i2 zs v := by
              intro zs
              induction zs with
              | nil => intro k i1 i2 v; rfl
              | cons z zs ihz =>
                intro k i1 i2 v
                simp only [compareLoop, current, advance]
                rcases v.cells[k]? with _ | a
                · rfl
                · simp only
                  rcases v.mem a with _ | _ | u
                  · rfl
                  · rfl
                  · simp only
                    rcases rich env r u z _ with _ | ⟨v1, res⟩
                    · rfl
                    · simp only
                      rcases release env z v1 with _ | v2
                      · rfl
                      · simp only
                        rcases res with _ | b
                        · rfl
                        · simp only
                          split
                          · exact ihz _ _ _ _
                          · rfl
            exact key _ _ _ _ _
        have hstep : compareLoop env s r pre.length (b :: bs).head? (y :: ys) w =
            (match (if x = y then .ok (r == .eq) else Spec.resolve P r x y : Except Exc Bool) with
              | .error e => .ok (w1, .error e)
              | .ok c =>
                if c = (r == .eq) then compareLoop env s r (pre ++ [x]).length bs.head? ys w1
                else .ok (w1, .ok (r == .ne))) := by
          rw [compareLoop]
          simp only [hcur { w with held := put w.held y (w.held y + 1) } rfl rfl, hr, e1]
          rcases (if x = y then .ok (r == .eq) else Spec.resolve P r x y : Except Exc Bool) with e | c
          · rfl
          · simp only [hit]
            rw [hloop]
        have hfin : ∃ w', compareLoop env s r pre.length (b :: bs).head? (y :: ys) w =
            .ok (w', Spec.compare (Spec.resolve P r) r (x :: xs) (y :: ys)) ∧ AtRest w' (pre ++ x :: xs) := by
          rw [hstep]
          cases r with
          | eq =>
            have hs : Spec.compare (Spec.resolve P .eq) .eq (x :: xs) (y :: ys) =
                (match (if x = y then .ok true else Spec.resolve P .eq x y) with
                | .error e => .error e
                | .ok false => .ok false
                | .ok true => Spec.compare (Spec.resolve P .eq) .eq xs ys) := rfl
            rw [hs]
            have hb : ((Rel.eq == Rel.eq) = true) := rfl
            rw [hb]
            rcases (if x = y then .ok true else Spec.resolve P .eq x y : Except Exc Bool) with e | c
            · exact ⟨w1, rfl, hrest⟩
            · cases c with
              | false => exact ⟨w1, rfl, hrest⟩
              | true => exact ⟨w2, by simpa using e2, by simpa using h2⟩
          | ne =>
            have hs : Spec.compare (Spec.resolve P .ne) .ne (x :: xs) (y :: ys) =
                (match (if x = y then .ok false else Spec.resolve P .ne x y) with
                | .error e => .error e
                | .ok true => .ok true
                | .ok false => Spec.compare (Spec.resolve P .ne) .ne xs ys) := rfl
            rw [hs]
            have hb : ((Rel.ne == Rel.eq) = false) := rfl
            rw [hb]
            rcases (if x = y then .ok false else Spec.resolve P .ne x y : Except Exc Bool) with e | c
            · exact ⟨w1, rfl, hrest⟩
            · cases c with
              | true => exact ⟨w1, rfl, hrest⟩
              | false => exact ⟨w2, by simpa using e2, by simpa using h2⟩
        exact hfin

theorem compare_answers {env : Env} {f : Nat → Effect} {g : Rel → Nat → Nat → Effect} {P : Rel → Nat → Nat → Reply}
    (ha : Answers env f g P) {s : Shape} {r : Rel} {ys xs : List Nat} {w : World} (h : AtRest w xs) :
    ∃ w', compare env s r ys w = .ok (w', if ys.length = xs.length then Spec.compare (Spec.resolve P r) r xs ys
        else .ok (match r with | .eq => false | .ne => true)) ∧ AtRest w' xs := by
  have hlen : w.cells.length = xs.length := by simpa using congrArg List.length h.mem
  by_cases c : ys.length = xs.length
  · obtain ⟨w', e, h'⟩ := compareLoop_answers ha (s := s) (r := r) (ys := ys) (pre := []) (xs := xs) (as := []) (bs := w.cells)
      (w := w) h (by simp) rfl c
    refine ⟨w', ?_, h'⟩
    rw [compare, if_neg (by omega), if_pos c]
    exact e
  · refine ⟨w, ?_, h⟩
    rw [compare, if_pos (by omega), if_neg c]
    cases r <;> rfl

end Verif.Elems
