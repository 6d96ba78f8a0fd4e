import Verif.Model.Text
import Verif.Spec.Text

/-! Helper lemmas: `repr` of object lists. -/

namespace Verif.Text

open Verif.Elems (Shape)

/-- Is a list. -/
def listOf (kind : Nat → Option Shape) (o : Nat) : Bool := (kind o).isSome

theorem SameNodes.refl (w : World) : SameNodes w w := fun _ => rfl

theorem SameNodes.trans {a b c : World} (h : SameNodes a b) (k : SameNodes b c) : SameNodes a c :=
  fun o => (k o).trans (h o)

theorem SameNodes.length {a b : World} (h : SameNodes a b) (o : Nat) : (b o).length = (a o).length := by
  have := congrArg List.length (h o)
  simpa using this

theorem NodesOk.same {a b : World} (h : NodesOk a) (k : SameNodes a b) : NodesOk b := fun o => by
  rw [k o]; exact h o

theorem view_get (w : World) (o i : Nat) : (view w o)[i]? = ((w o)[i]?).map (·.2) := by
  simp [view]

theorem lookup_at : ∀ (l : List (Nat × Nat)), (l.map (·.1)).Nodup → ∀ (i : Nat) (p : Nat × Nat), l[i]? = some p →
    l.lookup p.1 = some p.2
  | [], _, i, p, h => by simp at h
  | (b, y) :: cs, hn, i, p, h => by
    simp only [List.map_cons, List.nodup_cons] at hn
    cases i with
    | zero =>
      simp only [List.getElem?_cons_zero, Option.some.injEq] at h
      subst h
      simp [List.lookup]
    | succ i =>
      simp only [List.getElem?_cons_succ] at h
      have hm : p.1 ∈ cs.map (·.1) := List.mem_map_of_mem (List.mem_of_getElem? h)
      have hne : (p.1 == b) = false := by
        rw [beq_eq_false_iff_ne]
        rintro rfl
        exact hn.1 hm
      rw [List.lookup, hne]
      exact lookup_at cs hn.2 i p h

theorem after_at : ∀ (l : List (Nat × Nat)), (l.map (·.1)).Nodup → ∀ (i : Nat) (p : Nat × Nat), l[i]? = some p →
    after p.1 l = (l[i + 1]?).map (·.1)
  | [], _, i, p, h => by simp at h
  | (b, y) :: cs, hn, i, p, h => by
    simp only [List.map_cons, List.nodup_cons] at hn
    cases i with
    | zero =>
      simp only [List.getElem?_cons_zero, Option.some.injEq] at h
      subst h
      cases cs <;> simp [after]
    | succ i =>
      simp only [List.getElem?_cons_succ] at h
      have hm : p.1 ∈ cs.map (·.1) := List.mem_map_of_mem (List.mem_of_getElem? h)
      have hne : b ≠ p.1 := by
        rintro rfl
        exact hn.1 hm
      rw [after, if_neg hne]
      exact after_at cs hn.2 i p h

/-- What is kept while the code runs. -/
structure Kept (kind : Nat → Option Shape) (rank : Nat → Nat) (w0 w : World) : Prop where
  nodes : NodesOk w
  layered : Spec.Layered (listOf kind) rank (view w)
  same : SameNodes w0 w

/-- The elements answer alike in model and specification. -/
def Sim (K : World → Prop) (P : Nat → Prop) (rep : Nat → World → Res) (rep' : Nat → View → Option (View × Answer)) : Prop :=
  ∀ x w, P x → K w → ∃ w' a, rep x w = some (.ok (w', a)) ∧ rep' x (view w) = some (view w', a) ∧ K w'

section
variable {K : World → Prop} {w0 : World} {P : Nat → Prop} {rep : Nat → World → Res}
  {rep' : Nat → View → Option (View × Answer)}

theorem finish_sim (hK : ∀ w, K w → NodesOk w ∧ SameNodes w0 w) (hs : Sim K P rep rep') {o : Nat}
    (hp : ∀ w, K w → ∀ x ∈ view w o, P x) {i fuel : Nat} {text : Str} {w : World} (hk : K w)
    (hi : i + 1 = (w0 o).length) :
    ∃ w' a, finish rep o (text ++ (if i = 0 then "" else ", ").toList) w = some (.ok (w', a)) ∧
      Spec.loop rep' o (fuel + 2) i text (view w) = some (view w', a) ∧ K w' := by
  have hn := (hK _ hk).2.length o
  have hg : (w o).getLast? = (w o)[i]? := by
    rw [List.getLast?_eq_getElem?]
    congr 1
    omega
  obtain ⟨p, e⟩ : ∃ p, (w o)[i]? = some p := ⟨_, List.getElem?_eq_getElem (by omega)⟩
  have e2 : (view w o)[i]? = some p.2 := by rw [view_get, e]; rfl
  obtain ⟨w', a, r1, r2, r4⟩ := hs p.2 w (hp w hk _ (List.mem_of_getElem? e2)) hk
  rw [finish, hg, e]
  dsimp only
  rw [r1, Spec.loop, e2]
  dsimp only
  rw [r2]
  cases a with
  | error x => exact ⟨w', _, rfl, rfl, r4⟩
  | ok t =>
    have e3 : (view w' o)[i + 1]? = none := by
      rw [List.getElem?_eq_none_iff]
      simp only [view, List.length_map]
      rw [(hK _ r4).2.length]
      omega
    dsimp only
    rw [Spec.loop, e3]
    refine ⟨w', _, rfl, ?_, r4⟩
    simp

theorem arrayLoop_sim (hK : ∀ w, K w → NodesOk w ∧ SameNodes w0 w) (hs : Sim K P rep rep') {o : Nat}
    (hp : ∀ w, K w → ∀ x ∈ view w o, P x) :
    ∀ (fuel i : Nat) (text : Str) (w : World), K w → i < (w0 o).length → (w0 o).length < fuel + i →
      ∃ w' a, arrayLoop rep o fuel i (text ++ (if i = 0 then "" else ", ").toList) w = some (.ok (w', a)) ∧
        Spec.loop rep' o fuel i text (view w) = some (view w', a) ∧ K w'
  | 0, i, text, w, hk, hi, hf => by omega
  | fuel + 1, i, text, w, hk, hi, hf => by
    rw [arrayLoop.eq_def]
    have hn := (hK _ hk).2.length o
    dsimp only
    by_cases hl : i < (w o).length - 1
    · rw [if_pos (.inr hl)]
      obtain ⟨p, e⟩ : ∃ p, (w o)[i]? = some p := ⟨_, List.getElem?_eq_getElem (by omega)⟩
      have e2 : (view w o)[i]? = some p.2 := by rw [view_get, e]; rfl
      obtain ⟨w', a, r1, r2, r4⟩ := hs p.2 w (hp w hk _ (List.mem_of_getElem? e2)) hk
      rw [e]
      dsimp only
      rw [r1, Spec.loop, e2]
      dsimp only
      rw [r2]
      cases a with
      | error x => exact ⟨w', _, rfl, rfl, r4⟩
      | ok t =>
        have := arrayLoop_sim hK hs hp fuel (i + 1) (text ++ (if i = 0 then "" else ", ").toList ++ t) w' r4
          (by omega) (by omega)
        rw [if_neg (Nat.succ_ne_zero i)] at this
        exact this
    · rw [if_neg (by omega)]
      obtain ⟨f, rfl⟩ : ∃ f, fuel = f + 1 := ⟨fuel - 1, by omega⟩
      exact finish_sim hK hs hp hk (by omega)

theorem linkedLoop_sim (hK : ∀ w, K w → NodesOk w ∧ SameNodes w0 w) (hs : Sim K P rep rep') {o : Nat}
    (hp : ∀ w, K w → ∀ x ∈ view w o, P x) :
    ∀ (fuel i : Nat) (text : Str) (w : World), K w → i < (w0 o).length → (w0 o).length < fuel + i →
      ∃ w' a, linkedLoop rep o fuel i (((w o)[i]?).map (·.1)) (text ++ (if i = 0 then "" else ", ").toList) w =
          some (.ok (w', a)) ∧
        Spec.loop rep' o fuel i text (view w) = some (view w', a) ∧ K w'
  | 0, i, text, w, hk, hi, hf => by omega
  | fuel + 1, i, text, w, hk, hi, hf => by
    rw [linkedLoop.eq_def]
    have hn := (hK _ hk).2.length o
    dsimp only
    by_cases hl : i < (w o).length - 1
    · rw [if_pos (.inr hl)]
      obtain ⟨p, e⟩ : ∃ p, (w o)[i]? = some p := ⟨_, List.getElem?_eq_getElem (by omega)⟩
      have e2 : (view w o)[i]? = some p.2 := by rw [view_get, e]; rfl
      obtain ⟨w', a, r1, r2, r4⟩ := hs p.2 w (hp w hk _ (List.mem_of_getElem? e2)) hk
      rw [e]
      simp only [Option.map_some]
      rw [lookup_at (w o) ((hK _ hk).1 o) i p e]
      dsimp only
      rw [r1, Spec.loop, e2]
      dsimp only
      rw [r2]
      cases a with
      | error x => exact ⟨w', _, rfl, rfl, r4⟩
      | ok t =>
        have hn' := (hK _ r4).2.length o
        obtain ⟨q, e4⟩ : ∃ q, (w' o)[i]? = some q := ⟨_, List.getElem?_eq_getElem (by omega)⟩
        have e5 : q.1 = p.1 := by
          have := congrArg (·[i]?) (((hK _ r4).2 o).trans ((hK _ hk).2 o).symm)
          simp only [List.getElem?_map, e, e4, Option.map_some, Option.some.injEq] at this
          exact this
        have e6 := lookup_at (w' o) ((hK _ r4).1 o) i q e4
        have e7 := after_at (w' o) ((hK _ r4).1 o) i q e4
        rw [e5] at e6 e7
        dsimp only
        rw [e6, e7]
        dsimp only
        have := linkedLoop_sim hK hs hp fuel (i + 1) (text ++ (if i = 0 then "" else ", ").toList ++ t) w' r4
          (by omega) (by omega)
        rw [if_neg (Nat.succ_ne_zero i)] at this
        exact this
    · rw [if_neg (by omega)]
      obtain ⟨f, rfl⟩ : ∃ f, fuel = f + 1 := ⟨fuel - 1, by omega⟩
      exact finish_sim hK hs hp hk (by omega)

end

/-- Code that replaces elements at most, creates no cycle and does in the model what it does in the specification. -/
structure Tame (kind : Nat → Option Shape) (rank : Nat → Nat) (code : Code) (code' : Spec.Code) : Prop where
  same : ∀ o w, SameNodes w (code o w).1
  layered : ∀ o w, Spec.Layered (listOf kind) rank (view w) → Spec.Layered (listOf kind) rank (view (code o w).1)
  mirror : ∀ o w, code' o (view w) = (view (code o w).1, (code o w).2)

theorem repr_sim {kind : Nat → Option Shape} {rank : Nat → Nat} {code : Code} {code' : Spec.Code}
    (ht : Tame kind rank code code') {fuel : Nat} {w0 : World} (hf : ∀ o, (w0 o).length < fuel) :
    ∀ (limit : Nat) (busy : List Nat) (o : Nat) (w : World), Kept kind rank w0 w →
      (∀ b ∈ busy, listOf kind o = true → rank o < rank b) →
      ∃ w' a, repr kind code fuel limit o w = some (.ok (w', a)) ∧
        Spec.repr (listOf kind) code' fuel limit busy o (view w) = some (view w', a) ∧ Kept kind rank w0 w'
  | 0, busy, o, w, hk, hb => ⟨w, _, rfl, rfl, hk⟩
  | limit + 1, busy, o, w, hk, hb => by
    rw [repr, Spec.repr]
    cases hkind : kind o with
    | none =>
      have : listOf kind o = false := by simp [listOf, hkind]
      rw [if_neg (by simp [this])]
      refine ⟨_, _, rfl, ?_, hk.nodes.same (ht.same o w), ht.layered o w hk.layered, hk.same.trans (ht.same o w)⟩
      rw [ht.mirror]
    | some s =>
      have hl : listOf kind o = true := by simp [listOf, hkind]
      rw [if_pos hl, if_neg (fun h => Nat.lt_irrefl _ (hb o h hl))]
      dsimp only
      have hlen := hk.same.length o
      have hlt := hf o
      by_cases he : (w o).length = 0
      · rw [if_pos he]
        obtain ⟨f, rfl⟩ : ∃ f, fuel = f + 1 := ⟨fuel - 1, by omega⟩
        have e0 : w o = [] := List.length_eq_zero_iff.1 he
        have e2 : (view w o)[0]? = none := by simp [view, e0]
        rw [Spec.loop, e2]
        exact ⟨w, _, rfl, rfl, hk⟩
      · rw [if_neg he]
        have hsim : Sim (Kept kind rank w0) (fun x => listOf kind x = true → rank x < rank o)
            (repr kind code fuel limit) (Spec.repr (listOf kind) code' fuel limit (o :: busy)) := by
          intro x w hx hk
          refine repr_sim ht hf limit (o :: busy) x w hk fun b hbm hxl => ?_
          rcases List.mem_cons.1 hbm with rfl | hbm
          · exact hx hxl
          · exact Nat.lt_trans (hx hxl) (hb b hbm hl)
        have hp : ∀ w, Kept kind rank w0 w → ∀ x ∈ view w o, listOf kind x = true → rank x < rank o :=
          fun w hk x hx hxl => hk.layered o x hl hx hxl
        have hK : ∀ w, Kept kind rank w0 w → NodesOk w ∧ SameNodes w0 w := fun w hk => ⟨hk.nodes, hk.same⟩
        cases s with
        | array =>
          have := arrayLoop_sim hK hsim hp fuel 0 "[".toList w hk (by omega) (by omega)
          simpa using this
        | linked =>
          have := linkedLoop_sim hK hsim hp fuel 0 "[".toList w hk (by omega) (by omega)
          simpa [List.head?_eq_getElem?] using this

/-! ### Elements that change nothing -/

/-- Each string with a comma before it. -/
def joined : Nat → List Str → Str
  | _, [] => []
  | i, t :: ts => (if i = 0 then "" else ", ").toList ++ t ++ joined (i + 1) ts

theorem joined_succ (ts : List Str) : ∀ i, joined (i + 1) ts = (ts.map (", ".toList ++ ·)).flatten := by
  induction ts with
  | nil => intro i; rfl
  | cons t ts ih => intro i; simp [joined, ih]

theorem joined_zero (ts : List Str) : "[".toList ++ joined 0 ts ++ "]".toList = Spec.bracketed ts := by
  unfold Spec.bracketed
  congr 2
  cases ts with
  | nil => rfl
  | cons t ts =>
    rw [joined, joined_succ]
    simp only [if_true]
    induction ts generalizing t with
    | nil => simp
    | cons u us ih =>
      have := ih u
      simp only [List.intersperse_cons_cons, List.flatten_cons, List.map_cons] at *
      rw [← this]
      simp

theorem loop_texts {rep : Nat → View → Option (View × Answer)} {o : Nat} {v : View} :
    ∀ (ts : List Str) (fuel i : Nat) (text : Str), ((v o).drop i).map (rep · v) = ts.map (fun t => some (v, .ok t)) →
      ts.length < fuel → Spec.loop rep o fuel i text v = some (v, .ok (text ++ joined i ts ++ "]".toList))
  | _, 0, _, _, _, hf => by omega
  | ts, fuel + 1, i, text, h, hf => by
    rw [Spec.loop]
    cases hx : (v o)[i]? with
    | none =>
      have : (v o).drop i = [] := by
        rw [List.drop_eq_nil_iff]
        exact List.getElem?_eq_none_iff.1 hx
      rw [this] at h
      have : ts = [] := by simpa using h.symm
      subst this
      simp [joined]
    | some x =>
      have hi : i < (v o).length := (List.getElem?_eq_some_iff.1 hx).1
      have hd : (v o).drop i = x :: (v o).drop (i + 1) := by
        rw [List.drop_eq_getElem_cons hi]
        congr 1
        exact (List.getElem?_eq_some_iff.1 hx).2
      rw [hd] at h
      cases ts with
      | nil => simp at h
      | cons t ts' =>
        simp only [List.map_cons, List.cons.injEq] at h
        obtain ⟨h1, h2⟩ := h
        dsimp only
        rw [h1]
        dsimp only
        rw [loop_texts ts' fuel (i + 1) _ h2 (by simpa using hf)]
        simp [joined]

/-! ### Cycles -/

/-- Calls that change nothing and raise nothing but RecursionError. -/
def Calm (rep : Nat → World → Res) (w : World) : Prop :=
  ∀ x, (∃ t, rep x w = some (.ok (w, .ok t))) ∨ rep x w = some (.ok (w, .error .recursion))

/-- The call raises RecursionError. -/
def Deep (rep : Nat → World → Res) (w : World) (x : Nat) : Prop := rep x w = some (.ok (w, .error .recursion))

theorem finish_calm {rep : Nat → World → Res} {w : World} (hc : Calm rep w) {o : Nat} (hne : (w o).length ≠ 0) (text : Str) :
    ((∃ t, finish rep o text w = some (.ok (w, .ok t))) ∨ finish rep o text w = some (.ok (w, .error .recursion))) ∧
    (∀ p, (w o)[(w o).length - 1]? = some p → Deep rep w p.2 → finish rep o text w = some (.ok (w, .error .recursion))) := by
  rw [finish, List.getLast?_eq_getElem?]
  obtain ⟨p, e⟩ : ∃ p, (w o)[(w o).length - 1]? = some p := ⟨_, List.getElem?_eq_getElem (by omega)⟩
  rw [e]
  dsimp only
  constructor
  · rcases hc p.2 with ⟨t, h⟩ | h
    · rw [h]; exact .inl ⟨_, rfl⟩
    · rw [h]; exact .inr rfl
  · intro q hq hd
    cases hq
    rw [hd]

theorem arrayLoop_calm {rep : Nat → World → Res} {w : World} (hc : Calm rep w) {o : Nat} (hne : (w o).length ≠ 0) :
    ∀ (fuel i : Nat) (text : Str), i < (w o).length → (w o).length ≤ fuel + i →
      ((∃ t, arrayLoop rep o fuel i text w = some (.ok (w, .ok t))) ∨
        arrayLoop rep o fuel i text w = some (.ok (w, .error .recursion))) ∧
      (∀ j p, i ≤ j → (w o)[j]? = some p → Deep rep w p.2 →
        arrayLoop rep o fuel i text w = some (.ok (w, .error .recursion)))
  | 0, i, text, hi, hf => by omega
  | fuel + 1, i, text, hi, hf => by
    rw [arrayLoop.eq_def]
    dsimp only
    by_cases hl : i < (w o).length - 1
    · rw [if_pos (.inr hl)]
      obtain ⟨p, e⟩ : ∃ p, (w o)[i]? = some p := ⟨_, List.getElem?_eq_getElem hi⟩
      rw [e]
      dsimp only
      rcases hc p.2 with ⟨t, h⟩ | h
      · rw [h]
        dsimp only
        obtain ⟨k1, k2⟩ := arrayLoop_calm hc hne fuel (i + 1) (text ++ t ++ ", ".toList) (by omega) (by omega)
        refine ⟨k1, fun j q hj hq hd => ?_⟩
        by_cases hij : j = i
        · subst hij
          rw [e] at hq
          cases hq
          rw [Deep, h] at hd
          cases hd
        · exact k2 j q (by omega) hq hd
      · rw [h]
        exact ⟨.inr rfl, fun _ _ _ _ _ => rfl⟩
    · rw [if_neg (by omega)]
      obtain ⟨k1, k2⟩ := finish_calm hc hne text
      refine ⟨k1, fun j q hj hq hd => k2 q ?_ hd⟩
      have : j < (w o).length := (List.getElem?_eq_some_iff.1 hq).1
      rw [← hq]
      congr 1
      omega

theorem linkedLoop_calm {rep : Nat → World → Res} {w : World} (hc : Calm rep w) {o : Nat} (hne : (w o).length ≠ 0)
    (hn : ((w o).map (·.1)).Nodup) :
    ∀ (fuel i : Nat) (text : Str), i < (w o).length → (w o).length ≤ fuel + i →
      ((∃ t, linkedLoop rep o fuel i (((w o)[i]?).map (·.1)) text w = some (.ok (w, .ok t))) ∨
        linkedLoop rep o fuel i (((w o)[i]?).map (·.1)) text w = some (.ok (w, .error .recursion))) ∧
      (∀ j p, i ≤ j → (w o)[j]? = some p → Deep rep w p.2 →
        linkedLoop rep o fuel i (((w o)[i]?).map (·.1)) text w = some (.ok (w, .error .recursion)))
  | 0, i, text, hi, hf => by omega
  | fuel + 1, i, text, hi, hf => by
    rw [linkedLoop.eq_def]
    dsimp only
    by_cases hl : i < (w o).length - 1
    · rw [if_pos (.inr hl)]
      obtain ⟨p, e⟩ : ∃ p, (w o)[i]? = some p := ⟨_, List.getElem?_eq_getElem hi⟩
      have e1 := lookup_at (w o) hn i p e
      have e2 := after_at (w o) hn i p e
      rw [e]
      simp only [Option.map_some]
      rw [e1]
      dsimp only
      rcases hc p.2 with ⟨t, h⟩ | h
      · rw [h]
        dsimp only
        rw [e1, e2]
        dsimp only
        obtain ⟨k1, k2⟩ := linkedLoop_calm hc hne hn fuel (i + 1) (text ++ t ++ ", ".toList) (by omega) (by omega)
        refine ⟨k1, fun j q hj hq hd => ?_⟩
        by_cases hij : j = i
        · subst hij
          rw [e] at hq
          cases hq
          rw [Deep, h] at hd
          cases hd
        · exact k2 j q (by omega) hq hd
      · rw [h]
        exact ⟨.inr rfl, fun _ _ _ _ _ => rfl⟩
    · rw [if_neg (by omega)]
      obtain ⟨k1, k2⟩ := finish_calm hc hne text
      refine ⟨k1, fun j q hj hq hd => k2 q ?_ hd⟩
      have : j < (w o).length := (List.getElem?_eq_some_iff.1 hq).1
      rw [← hq]
      congr 1
      omega

theorem repr_cycle {kind : Nat → Option Shape} {code : Code} {T : Nat → Str} (hT : ∀ o w, code o w = (w, .ok (T o)))
    {fuel : Nat} {w : World} (hf : ∀ o, (w o).length ≤ fuel) (hn : NodesOk w) (C : Nat → Prop)
    (hC : ∀ o, C o → (kind o).isSome = true ∧ ∃ x ∈ view w o, C x) :
    ∀ limit, Calm (repr kind code fuel limit) w ∧ ∀ o, C o → Deep (repr kind code fuel limit) w o
  | 0 => ⟨fun _ => .inr rfl, fun _ _ => rfl⟩
  | limit + 1 => by
    obtain ⟨c1, c2⟩ := repr_cycle hT hf hn C hC limit
    constructor
    · intro o
      rw [repr]
      cases kind o with
      | none => left; exact ⟨_, by dsimp only; rw [hT]⟩
      | some s =>
        dsimp only
        by_cases he : (w o).length = 0
        · rw [if_pos he]; exact .inl ⟨_, rfl⟩
        · rw [if_neg he]
          cases s with
          | array => exact (arrayLoop_calm c1 he fuel 0 _ (by omega) (by have := hf o; omega)).1
          | linked =>
            dsimp only
            rw [List.head?_eq_getElem?]
            exact (linkedLoop_calm c1 he (hn o) fuel 0 _ (by omega) (by have := hf o; omega)).1
    · intro o ho
      obtain ⟨h1, x, hx, h2⟩ := hC o ho
      obtain ⟨s, hs⟩ := Option.isSome_iff_exists.1 h1
      obtain ⟨p, hp, rfl⟩ := List.mem_map.1 hx
      obtain ⟨j, hj⟩ := List.mem_iff_getElem?.1 hp
      have hlt : j < (w o).length := (List.getElem?_eq_some_iff.1 hj).1
      rw [Deep, repr, hs]
      dsimp only
      rw [if_neg (by omega)]
      cases s with
      | array => exact (arrayLoop_calm c1 (by omega) fuel 0 _ (by omega) (by have := hf o; omega)).2 j p (by omega) hj (c2 _ h2)
      | linked =>
        dsimp only
        rw [List.head?_eq_getElem?]
        exact (linkedLoop_calm c1 (by omega) (hn o) fuel 0 _ (by omega) (by have := hf o; omega)).2 j p (by omega) hj
          (c2 _ h2)

end Verif.Text
