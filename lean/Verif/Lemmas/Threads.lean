import Verif.Spec.Threads
import Verif.Lemmas.SortReentry

/-! Helper lemmas for C66. -/

namespace Verif.Threads

open Verif.Store Verif.Spec
open Verif.Reentry (Same step_same)

variable {ν : Type}

/-! ### `reverse` -/

theorem overwrite_length {cs xs : List ν} {i : Nat} (h : i + xs.length ≤ cs.length) :
    (overwrite cs i xs).length = cs.length := by
  simp only [overwrite, List.length_append, List.length_take, List.length_drop]
  omega

theorem overwrite_get {cs xs : List ν} {i : Nat} (h : i + xs.length ≤ cs.length) (p : Nat) :
    (overwrite cs i xs)[p]? = if i ≤ p ∧ p < i + xs.length then xs[p - i]? else cs[p]? := by
  unfold overwrite
  by_cases h1 : p < i
  · rw [if_neg (by omega), List.append_assoc, List.getElem?_append_left (by rw [List.length_take]; omega),
      List.getElem?_take_of_lt h1]
  · by_cases h2 : p < i + xs.length
    · rw [if_pos ⟨by omega, h2⟩, List.append_assoc, List.getElem?_append_right (by rw [List.length_take]; omega),
        List.length_take, Nat.min_eq_left (by omega), List.getElem?_append_left (by omega)]
    · rw [if_neg (by omega), List.getElem?_append_right (by rw [List.length_append, List.length_take]; omega),
        List.length_append, List.length_take, Nat.min_eq_left (by omega), List.getElem?_drop]
      congr 1
      omega

/-- The rounds cover the lower half from `i` on. -/
def Tiles (n : Nat) : Nat → List (Nat × Nat) → Prop
  | i, [] => n ≤ 2 * i + 1
  | i, (j, W) :: rest => j = i ∧ 0 < W ∧ 2 * (i + W) ≤ n ∧ Tiles n (i + W) rest

theorem tiles_map {n W : Nat} (hW : 0 < W) {rest : List (Nat × Nat)} : ∀ (k i : Nat), 2 * (i + k * W) ≤ n →
    Tiles n (i + k * W) rest → Tiles n i ((List.range k).map (fun j => (i + j * W, W)) ++ rest)
  | 0, i, _, h => by simpa using h
  | k + 1, i, hn, h => by
    have e : i + (k + 1) * W = i + W + k * W := by rw [Nat.succ_mul]; omega
    rw [e] at hn h
    rw [List.range_succ_eq_map, List.map_cons, List.map_map, List.cons_append]
    refine ⟨by simp, hW, by omega, ?_⟩
    have := tiles_map hW k (i + W) hn h
    have e2 : ((fun j => (i + j * W, W)) ∘ Nat.succ) = fun j => (i + W + j * W, W) := by
      funext j
      simp only [Function.comp, Nat.succ_mul]
      congr 1
      omega
    rw [e2]
    exact this

theorem tiles_rounds {n : Nat} : ∀ (ws : List (Bool × Nat)) (i : Nat), (∀ p ∈ ws, 0 < p.2 ∧ p.2 ∣ i) →
    ws.Pairwise (fun p q => q.2 ∣ p.2) → 2 * i ≤ n → Tiles n i (rounds n ws i)
  | [], i, _, _, hi => by
    have := tiles_map (n := n) (W := 1) (rest := []) Nat.one_pos (n / 2 - i) i (by omega) (by simp only [Tiles]; omega)
    simpa [rounds] using this
  | (on, W) :: ws, i, hd, hp, hi => by
    obtain ⟨hW, hdi⟩ := hd (on, W) List.mem_cons_self
    simp only at hW hdi
    rw [List.pairwise_cons] at hp
    unfold rounds
    have hk : 2 * (i + (if on then n / 2 / W - i / W else 0) * W) ≤ n := by
      cases on with
      | false => simpa using hi
      | true =>
        simp only [if_true]
        obtain ⟨c, rfl⟩ := hdi
        rw [Nat.mul_div_cancel_left _ hW, Nat.sub_mul]
        have h1 := Nat.div_mul_le_self (n / 2) W
        have h2 : c * W = W * c := Nat.mul_comm _ _
        have h3 : W * c ≤ n / 2 := by omega
        omega
    refine tiles_map hW _ i hk (tiles_rounds ws _ ?_ hp.2 hk)
    intro p hm
    refine ⟨(hd p (List.mem_cons_of_mem _ hm)).1, ?_⟩
    exact Nat.dvd_add (hd p (List.mem_cons_of_mem _ hm)).2 (Nat.dvd_mul_left_of_dvd (hp.1 p hm) _)

theorem tiles_start (cfg : Cfg) (K : Kind) (n : Nat) : Tiles n 0 (rounds n (widths cfg K) 0) := by
  refine tiles_rounds _ 0 ?_ ?_ (by omega)
  · intro p hp
    refine ⟨?_, Nat.dvd_zero _⟩
    cases K <;> simp only [widths, List.mem_cons, List.not_mem_nil, or_false] at hp <;>
      rcases hp with rfl | rfl | rfl <;> simp
  · cases K <;> simp [widths] <;> decide

/-- `cs` is `tgt` with the places from `lo` on, up to `hi` before the end of the first `n`, still in opposite order. -/
def Mixed (n lo hi : Nat) (cs tgt : List ν) : Prop :=
  ∀ p, cs[p]? = if lo ≤ p ∧ p + hi < n then tgt[n - 1 - p]? else tgt[p]?

/-- `reverse` in progress on `cs`, to end with `tgt`. -/
def RevInv (r : Rev ν) (cs tgt : List ν) : Prop :=
  tgt.length = cs.length ∧ r.count ≤ cs.length ∧ ∃ i, Tiles r.count i r.todo ∧
  match r.todo, r.reg with
  | [], _ => Mixed r.count i i cs tgt
  | (_, _) :: _, .idle => Mixed r.count i i cs tgt
  | (_, W) :: _, .lower a => Mixed r.count i i cs tgt ∧ a.length = W ∧ ∀ k, k < W → a[k]? = tgt[r.count - 1 - (i + k)]?
  | (_, W) :: _, .both a b => Mixed r.count i i cs tgt ∧ (a.length = W ∧ ∀ k, k < W → a[k]? = tgt[r.count - 1 - (i + k)]?) ∧
      b.length = W ∧ ∀ k, k < W → b[k]? = tgt[i + W - 1 - k]?
  | (_, W) :: _, .half a => Mixed r.count (i + W) i cs tgt ∧ a.length = W ∧ ∀ k, k < W → a[k]? = tgt[r.count - 1 - (i + k)]?

/-- The cells with the first `n` in opposite order. -/
def turned (n : Nat) (cs : List ν) : List ν := (cs.take n).reverse ++ cs.drop n

theorem turned_length (n : Nat) (cs : List ν) : (turned n cs).length = cs.length := by
  simp only [turned, List.length_append, List.length_reverse, List.length_take, List.length_drop]
  omega

theorem turned_get {n : Nat} {cs : List ν} (hn : n ≤ cs.length) (p : Nat) :
    (turned n cs)[p]? = if p < n then cs[n - 1 - p]? else cs[p]? := by
  unfold turned
  have hl : (cs.take n).length = n := by rw [List.length_take]; omega
  by_cases h : p < n
  · rw [if_pos h, List.getElem?_append_left (by rw [List.length_reverse, hl]; exact h), List.getElem?_reverse (by omega), hl,
      List.getElem?_take_of_lt (by omega)]
  · rw [if_neg h, List.getElem?_append_right (by rw [List.length_reverse, hl]; omega), List.length_reverse, hl,
      List.getElem?_drop]
    congr 1
    omega

theorem revInv_start (cfg : Cfg) (K : Kind) (blk : Option Nat) {n : Nat} {cs : List ν} (hn : n ≤ cs.length) :
    RevInv ⟨blk, n, rounds n (widths cfg K) 0, .idle⟩ cs (turned n cs) := by
  refine ⟨turned_length _ _, hn, 0, tiles_start cfg K n, ?_⟩
  have : Mixed n 0 0 cs (turned n cs) := by
    intro p
    rw [turned_get hn, turned_get hn]
    by_cases h : p < n
    · rw [if_pos (by omega), if_pos (by omega)]
      congr 1
      omega
    · rw [if_neg (by omega), if_neg h]
  dsimp only
  split <;> simp_all

theorem revInv_done {r : Rev ν} {cs tgt : List ν} (h : RevInv r cs tgt) (hd : r.todo = []) : cs = tgt := by
  obtain ⟨hl, hn, i, ht, hm⟩ := h
  rw [hd] at ht hm
  simp only [Tiles] at ht
  refine List.ext_getElem? fun p => ?_
  rw [hm p]
  split
  · next hp =>
    congr 1
    omega
  · rfl

theorem take_drop_get {cs : List ν} {i W : Nat} {k : Nat} (hk : k < W) :
    ((cs.drop i).take W)[k]? = cs[i + k]? := by
  rw [List.getElem?_take_of_lt hk, List.getElem?_drop]

theorem take_drop_length {cs : List ν} {i W : Nat} (h : i + W ≤ cs.length) : ((cs.drop i).take W).length = W := by
  rw [List.length_take, List.length_drop]; omega

/-- An access is inside of the block, and brings the reversal on. -/
theorem revInv_access {r : Rev ν} {cs tgt : List ν} (h : RevInv r cs tgt) (hd : r.todo ≠ []) :
    ∃ r' cs', r.access cs = some (r', cs') ∧ RevInv r' cs' tgt ∧ r'.blk = r.blk ∧ r'.count = r.count := by
  obtain ⟨hl, hn, i, ht, hm⟩ := h
  obtain ⟨blk, n, todo, reg⟩ := r
  dsimp only at hn ht hm hd
  rcases todo with _ | ⟨⟨j, W⟩, rest⟩
  · exact absurd rfl hd
  obtain ⟨rfl, hW, h2, hrest⟩ := ht
  have b1 : j + W ≤ cs.length := by omega
  have b2 : n - j - W + W ≤ cs.length := by omega
  cases reg with
  | idle =>
    refine ⟨⟨blk, n, (j, W) :: rest, .lower ((cs.drop j).take W)⟩, cs, by simp only [Rev.access, if_pos b1], ?_, rfl, rfl⟩
    refine ⟨hl, hn, j, ⟨rfl, hW, h2, hrest⟩, hm, take_drop_length b1, fun k hk => ?_⟩
    rw [take_drop_get hk, hm, if_pos (by omega)]
  | lower a =>
    refine ⟨⟨blk, n, (j, W) :: rest, .both a ((cs.drop (n - j - W)).take W)⟩, cs,
      by simp only [Rev.access, if_pos b2], ?_, rfl, rfl⟩
    refine ⟨hl, hn, j, ⟨rfl, hW, h2, hrest⟩, hm.1, hm.2, take_drop_length b2, fun k hk => ?_⟩
    rw [take_drop_get hk, hm.1, if_pos (by omega)]
    congr 1
    omega
  | both a b =>
    obtain ⟨hm, ha, hb, hbk⟩ := hm
    refine ⟨⟨blk, n, (j, W) :: rest, .half a⟩, overwrite cs j b.reverse, by simp only [Rev.access, if_pos b1], ?_, rfl, rfl⟩
    have hlen : j + b.reverse.length ≤ cs.length := by rw [List.length_reverse]; omega
    refine ⟨by rw [overwrite_length hlen, hl], by rw [overwrite_length hlen]; exact hn, j, ⟨rfl, hW, h2, hrest⟩, ?_, ha⟩
    intro p
    rw [overwrite_get hlen, List.length_reverse, hb]
    by_cases hp : j ≤ p ∧ p < j + W
    · rw [if_pos hp, if_neg (by omega), List.getElem?_reverse (by omega), hb, hbk _ (by omega)]
      congr 1
      omega
    · rw [if_neg hp, hm]
      by_cases hq : j + W ≤ p ∧ p + j < n
      · rw [if_pos hq, if_pos (by omega)]
      · rw [if_neg hq, if_neg (by omega)]
  | half a =>
    obtain ⟨hm, ha, hak⟩ := hm
    refine ⟨⟨blk, n, rest, .idle⟩, overwrite cs (n - j - W) a.reverse, by simp only [Rev.access, if_pos b2], ?_, rfl, rfl⟩
    have hlen : n - j - W + a.reverse.length ≤ cs.length := by rw [List.length_reverse]; omega
    refine ⟨by rw [overwrite_length hlen, hl], by rw [overwrite_length hlen]; exact hn, j + W, hrest, ?_⟩
    have key : Mixed n (j + W) (j + W) (overwrite cs (n - j - W) a.reverse) tgt := by
      intro p
      rw [overwrite_get hlen, List.length_reverse, ha]
      by_cases hp : n - j - W ≤ p ∧ p < n - j - W + W
      · rw [if_pos hp, if_neg (by omega), List.getElem?_reverse (by omega), ha, hak _ (by omega)]
        congr 1
        omega
      · rw [if_neg hp, hm]
        by_cases hq : j + W ≤ p ∧ p + (j + W) < n
        · rw [if_pos hq, if_pos (by omega)]
        · rw [if_neg hq, if_neg (by omega)]
    dsimp only
    split <;> simp_all

/-! ### Blocks in another state -/

/-- The world with other cells in some blocks. -/
def overlay (G : Nat → Option (List Int)) (w : World) : World :=
  { w with mem := fun b => match G b with | some tgt => some tgt | none => w.mem b }

/-- An outcome in that world. -/
def overlayOut (G : Nat → Option (List Int)) : Out World Ans → Out World Ans
  | .ok w a => .ok (overlay G w) a
  | .exc w e => .exc (overlay G w) e
  | .pending w a e => .pending (overlay G w) a e
  | .ub u => .ub u

variable {cfg : Cfg} {K : Kind} {grow : Nat → Nat → Nat} {w : World} {G : Nat → Option (List Int)}

/-- Every such block is the storage of a list that `e` does not use. -/
def Aside (G : Nat → Option (List Int)) (w : World) (ok : Nat → Prop) : Prop :=
  ∀ b tgt, G b = some tgt → ∃ o n, w.objs o = some ⟨some b, n⟩ ∧ ok o

theorem aside_none (h : WF w) {ok : Nat → Prop} (hG : Aside G w ok) {p b n : Nat} (hp : ¬ ok p)
    (ho : w.objs p = some ⟨some b, n⟩) : G b = none := by
  cases e : G b with
  | none => rfl
  | some tgt =>
    obtain ⟨o, m, h1, h2⟩ := hG b tgt e
    rw [h.sep o p b m n h1 ho] at h2
    exact absurd h2 hp

theorem aside_next (h : WF w) {ok : Nat → Prop} (hG : Aside G w ok) : G w.next = none := by
  cases e : G w.next with
  | none => rfl
  | some tgt =>
    obtain ⟨o, n, h1, -⟩ := hG _ tgt e
    obtain ⟨cs, h2, -⟩ := h.vec o _ n h1
    exact absurd (h.low _ cs h2) (Nat.lt_irrefl _)

theorem overlay_cells (h : WF w) {ok : Nat → Prop} (hG : Aside G w ok) {p : Nat} (hp : ¬ ok p) {v : Vec}
    (ho : w.objs p = some v) : cells (overlay G w) v = cells w v := by
  obtain ⟨blk, n⟩ := v
  cases blk with
  | none => rfl
  | some b => simp only [cells, overlay, aside_none h hG hp ho]

theorem overlay_upd {b : Nat} {x : Option (List Int)} (hb : G b = none) :
    upd (overlay G w).mem b x = (overlay G { w with mem := upd w.mem b x }).mem := by
  funext c
  simp only [overlay, upd]
  by_cases hc : c = b
  · subst hc; simp [hb]
  · simp [hc]

theorem overlay_put (h : WF w) {ok : Nat → Prop} (hG : Aside G w ok) {p : Nat} (hp : ¬ ok p) {v : Vec}
    (ho : w.objs p = some v) (cs l : List Int) (need : Nat) :
    put grow (overlay G w) p v cs l need = overlay G (put grow w p v cs l need) := by
  obtain ⟨blk, n⟩ := v
  have hx := aside_next h hG
  unfold put
  split
  · cases blk with
    | none => rfl
    | some b =>
      have := aside_none h hG hp ho
      simp only [overlay_upd this]
      rfl
  · cases blk with
    | none =>
      simp only
      have : (overlay G w).next = w.next := rfl
      rw [this, overlay_upd hx]
      rfl
    | some b =>
      have hb := aside_none h hG hp ho
      simp only
      have e : (overlay G w).next = w.next := rfl
      have e2 := overlay_upd (w := { w with mem := upd w.mem b none }) (G := G) (b := w.next)
        (x := some (l ++ List.replicate (grow cs.length need - l.length) 0)) hx
      rw [e, overlay_upd hb, e2]
      rfl

theorem overlay_fresh (h : WF w) {ok : Nat → Prop} (hG : Aside G w ok) (p : Nat) (l : List Int) (cap : Nat) :
    fresh (overlay G w) p l cap = overlay G (fresh w p l cap) := by
  have hx := aside_next h hG
  unfold fresh
  split
  · rfl
  · have : (overlay G w).next = w.next := rfl
    rw [this, overlay_upd hx]
    rfl

theorem overlay_callOp (h : WF w) {ok : Nat → Prop} (hG : Aside G w ok) {p : Nat} (hp : ¬ ok p) (op : Op) (hint : Nat) :
    callOp cfg K grow (overlay G w) p op hint = overlayOut G (callOp cfg K grow w p op hint) := by
  unfold callOp
  have e : (overlay G w).objs p = w.objs p := rfl
  rw [e]
  cases ho : w.objs p with
  | none => rfl
  | some v =>
    dsimp only
    rw [overlay_cells h hG hp ho]
    cases cells w v with
    | none => rfl
    | some cs =>
      dsimp only
      cases ArrayList.step cfg K (cs.take v.size) op <;> simp only [overlayOut, overlay_put h hG hp ho]

/-- An event that does not use the lists with the other blocks does there what it does here. -/
theorem overlay_step (h : WF w) (e : Ev) (hG : Aside G w (fun o => ¬ Uses o w e)) :
    Store.step cfg K grow (overlay G w) e = overlayOut G (Store.step cfg K grow w e) := by
  have view : ∀ id x, w.views id = some x → (∀ c, (w.views id).map (·.of) = some c → Uses c w e) →
      ∀ b, x.blk = some b → G b = none := by
    intro id x hv hu b hb
    cases eg : G b with
    | none => rfl
    | some tgt =>
      obtain ⟨o, n, h1, h2⟩ := hG b tgt eg
      obtain ⟨of, blk, len⟩ := x
      subst hb
      have := h.vown id of b len o n hv h1
      subst this
      exact absurd (hu o (by rw [hv]; rfl)) h2
  cases e with
  | create o arg n =>
    simp only [Store.step]
    have : (overlay G w).objs o = w.objs o := rfl
    rw [this]
    cases w.objs o with
    | some v => rfl
    | none =>
      dsimp only
      cases ArrayList.init K arg <;> simp only [overlayOut, overlay_fresh h hG]
  | call o op hint => exact overlay_callOp h hG (p := o) (fun hn => hn rfl) op hint
  | callOn o p b =>
    simp only [Store.step]
    have e : (overlay G w).objs p = w.objs p := rfl
    rw [e]
    split
    · next hop => exact overlay_callOp h hG (p := o) (fun hn => hn (.inl rfl)) _ _
    · cases ho : w.objs p with
      | none => rfl
      | some v =>
        dsimp only
        rw [overlay_cells h hG (p := p) (fun hn => hn (.inr rfl)) ho]
        cases cells w v with
        | none => rfl
        | some cs => exact overlay_callOp h hG (p := o) (fun hn => hn (.inl rfl)) _ _
  | copy o c =>
    simp only [Store.step]
    have e : (overlay G w).objs = w.objs := rfl
    rw [e]
    cases ho : w.objs o with
    | none => rfl
    | some v =>
      cases w.objs c with
      | some _ => rfl
      | none =>
        dsimp only
        rw [overlay_cells h hG (p := o) (fun hn => hn (.inl rfl)) ho]
        cases cells w v with
        | none => rfl
        | some cs => simp only [overlayOut, overlay_fresh h hG]
  | drop o =>
    simp only [Store.step]
    have e : (overlay G w).objs = w.objs := rfl
    rw [e]
    cases ho : w.objs o with
    | none => rfl
    | some v =>
      obtain ⟨blk, n⟩ := v
      cases blk with
      | none => rfl
      | some b =>
        have := aside_none h hG (p := o) (fun hn => hn rfl) ho
        simp only [overlayOut, overlay_upd this]
        rfl
  | view o id =>
    simp only [Store.step]
    have e : (overlay G w).objs = w.objs := rfl
    have e' : (overlay G w).views = w.views := rfl
    rw [e, e']
    cases w.objs o <;> cases w.views id <;> rfl
  | read id i =>
    simp only [Store.step]
    have e : (overlay G w).views = w.views := rfl
    rw [e]
    cases hv : w.views id with
    | none => rfl
    | some x =>
      dsimp only
      split
      · cases hb : x.blk with
        | none => rfl
        | some b =>
          have := view id x hv (fun c hc => hc) b hb
          have e : (overlay G w).mem b = w.mem b := by simp only [overlay, this]
          dsimp only
          rw [e]
          cases w.mem b with
          | none => rfl
          | some cs => dsimp only; cases cs[i]? <;> rfl
      · rfl
  | write id i v =>
    simp only [Store.step]
    have e : (overlay G w).views = w.views := rfl
    rw [e]
    cases hv : w.views id with
    | none => rfl
    | some x =>
      dsimp only
      split
      · cases hb : x.blk with
        | none => rfl
        | some b =>
          have := view id x hv (fun c hc => hc) b hb
          have e : (overlay G w).mem b = w.mem b := by simp only [overlay, this]
          dsimp only
          rw [e]
          cases w.mem b with
          | none => rfl
          | some cs =>
            dsimp only
            split
            · simp only [overlayOut, overlay_upd this]
              rfl
            · rfl
      · rfl
  | release id => rfl
  | bytes o garbage =>
    simp only [Store.step]
    have e : (overlay G w).objs = w.objs := rfl
    rw [e]
    cases ho : w.objs o with
    | none => rfl
    | some v =>
      dsimp only
      rw [overlay_cells h hG (p := o) (fun hn => hn rfl) ho]
      cases cells w v with
      | none => rfl
      | some cs => dsimp only; split <;> rfl

end Verif.Threads
