import Verif.Lemmas.ThreadsSim

/-! Helper lemmas for C66: what goes wrong when other threads use the list, and that calls end. -/

namespace Verif.Threads

open Verif.Store Verif.Spec

variable {cfg : Cfg} {K : Kind} {grow : Nat → Nat → Nat} {w : World}

/-! ### Running schedules -/

theorem run_cons {s s' s'' : State} {a : Act} {as : List Act} {x : Obs} {xs : List Obs} (h : step cfg K grow s a = .ok (s', x))
    (h' : run cfg K grow s' as = .ok (s'', xs)) : run cfg K grow s (a :: as) = .ok (s'', x :: xs) := by
  simp only [run, h, h']

theorem run_append : ∀ {as bs : List Act} {s s' s'' : State} {xs ys : List Obs}, run cfg K grow s as = .ok (s', xs) →
    run cfg K grow s' bs = .ok (s'', ys) → run cfg K grow s (as ++ bs) = .ok (s'', xs ++ ys)
  | [], bs, s, s', s'', xs, ys, h, h' => by cases h; exact h'
  | a :: as, bs, s, s', s'', xs, ys, h, h' => by
    simp only [run] at h
    cases e1 : step cfg K grow s a with
    | error u => rw [e1] at h; cases h
    | ok p =>
      obtain ⟨s1, x⟩ := p
      rw [e1] at h
      dsimp only at h
      cases e2 : run cfg K grow s1 as with
      | error u => rw [e2] at h; cases h
      | ok q =>
        obtain ⟨s2, zs⟩ := q
        rw [e2] at h
        cases h
        exact run_cons e1 (run_append e2 h')

theorem run_error : ∀ {as : List Act} {b : Act} {s s' : State} {xs : List Obs} {u : UB}, run cfg K grow s as = .ok (s', xs) →
    step cfg K grow s' b = .error u → run cfg K grow s (as ++ [b]) = .error u
  | [], b, s, s', xs, u, h, h' => by cases h; simp only [List.nil_append, run, h']
  | a :: as, b, s, s', xs, u, h, h' => by
    simp only [run] at h
    cases e1 : step cfg K grow s a with
    | error u => rw [e1] at h; cases h
    | ok p =>
      obtain ⟨s1, x⟩ := p
      rw [e1] at h
      dsimp only at h
      cases e2 : run cfg K grow s1 as with
      | error u => rw [e2] at h; cases h
      | ok q =>
        obtain ⟨s2, zs⟩ := q
        rw [e2] at h
        cases h
        simp only [List.cons_append, run, e1, run_error e2 h']

/-- Calls that keep the lock. -/
theorem run_calls : ∀ {es : List Ev} {w w' : World} (ts : Nat → Option Task), Store.run cfg K grow w es = some w' →
    ∃ xs, run cfg K grow ⟨w, ts⟩ (es.map .call) = .ok (⟨w', ts⟩, xs)
  | [], w, w', ts, h => by cases h; exact ⟨[], rfl⟩
  | e :: es, w, w', ts, h => by
    simp only [Store.run] at h
    cases eo : Store.step cfg K grow w e with
    | ok w1 a =>
      rw [eo] at h
      obtain ⟨xs, hx⟩ := run_calls ts h
      exact ⟨.ret a :: xs, run_cons (by simp only [step, eo]) hx⟩
    | exc w1 a =>
      rw [eo] at h
      obtain ⟨xs, hx⟩ := run_calls ts h
      exact ⟨.exc a :: xs, run_cons (by simp only [step, eo]) hx⟩
    | pending w1 a e' =>
      rw [eo] at h
      obtain ⟨xs, hx⟩ := run_calls ts h
      exact ⟨.pending a e' :: xs, run_cons (by simp only [step, eo]) hx⟩
    | ub u => rw [eo] at h; cases h

theorem put_alive {o : Nat} {v : Vec} {cs l : List Int} {need : Nat} : (put grow w o v cs l need).objs o ≠ none := by
  obtain ⟨blk, n⟩ := v
  unfold put
  split
  · cases blk <;> simp only [upd_same] <;> simp
  · simp only [upd_same]; simp

theorem appends_alive {o : Nat} : ∀ (k : Nat) {w w' : World}, w.objs o ≠ none →
    Store.run cfg K grow w (List.replicate k (.call o (.append (.int 0)) 0)) = some w' → w'.objs o ≠ none
  | 0, w, w', h, hr => by cases hr; exact h
  | k + 1, w, w', h, hr => by
    rw [List.replicate_succ] at hr
    simp only [Store.run, Store.step, callOp] at hr
    cases ho : w.objs o with
    | none => exact absurd ho h
    | some v =>
      rw [ho] at hr
      dsimp only at hr
      cases hc : cells w v with
      | none => rw [hc] at hr; cases hr
      | some cs =>
        rw [hc] at hr
        simp only [append_zero, Out.state?] at hr
        exact appends_alive k put_alive hr

/-! ### `reverse` goes on -/

/-- Accesses still to do. -/
def Rev.left {ν : Type} (r : Rev ν) : Nat :=
  match r.todo, r.reg with
  | [], _ => 0
  | _ :: rest, .idle => 4 * rest.length + 4
  | _ :: rest, .lower _ => 4 * rest.length + 3
  | _ :: rest, .both _ _ => 4 * rest.length + 2
  | _ :: rest, .half _ => 4 * rest.length + 1

theorem access_left {ν : Type} {r r' : Rev ν} {cs cs' : List ν} (h : r.access cs = some (r', cs')) : r'.left + 1 = r.left := by
  obtain ⟨blk, count, todo, reg⟩ := r
  unfold Rev.access at h
  cases todo with
  | nil => cases h
  | cons p rest =>
    obtain ⟨i, W⟩ := p
    cases reg <;> dsimp only at h <;> split at h <;> simp only [Option.some.injEq, Prod.mk.injEq, reduceCtorEq] at h <;>
      obtain ⟨rfl, -⟩ := h
    · rfl
    · rfl
    · rfl
    · cases rest <;> simp [Rev.left, Nat.mul_succ]

theorem tiles_short {n : Nat} : ∀ (l : List (Nat × Nat)) (i : Nat), 2 * i ≤ n → Tiles n i l → 2 * i + 2 * l.length ≤ n
  | [], i, hi, h => by simpa using hi
  | (j, W) :: rest, i, hi, h => by
    obtain ⟨-, h1, h2, h3⟩ := h
    have := tiles_short rest (i + W) h2 h3
    simp only [List.length_cons]
    omega

theorem tick_rev {s : State} {t o b : Nat} {r r' : Rev Int} {cs cs' : List Int} (ht : s.tasks t = some (.rev o r))
    (hb : r.blk = some b) (hm : s.w.mem b = some cs) (ha : r.access cs = some (r', cs')) (hd : r.todo ≠ []) :
    step cfg K grow s (.tick t) =
      .ok (⟨{ s.w with mem := upd s.w.mem b (some cs') }, upd s.tasks t (some (.rev o r'))⟩, .quiet) := by
  simp only [step]
  unfold tick
  rw [ht]
  dsimp only
  rw [if_neg hd, hb]
  dsimp only
  rw [hm]
  dsimp only
  rw [ha]

/-- The first store that shows, shows one half only. -/
theorem half_seen {r r' : Rev Int} {l cs' : List Int} (h : RevInv r l (turned r.count l)) (ha : r.access l = some (r', cs'))
    (hne : cs' ≠ l) : cs' ≠ turned r.count l := by
  obtain ⟨blk, n, todo, reg⟩ := r
  obtain ⟨hlen, hn, i, hT, hI⟩ := h
  dsimp only at hlen hn hT hI ha ⊢
  unfold Rev.access at ha
  cases todo with
  | nil => cases ha
  | cons p rest =>
    obtain ⟨j, W⟩ := p
    obtain ⟨rfl, hW, h2, -⟩ := hT
    cases reg with
    | idle =>
      dsimp only at ha
      split at ha
      · cases ha; exact absurd rfl hne
      · cases ha
    | lower a =>
      dsimp only at ha
      split at ha
      · cases ha; exact absurd rfl hne
      · cases ha
    | both a c =>
      dsimp only at ha hI
      split at ha
      · next hle =>
        simp only [Option.some.injEq, Prod.mk.injEq] at ha
        obtain ⟨-, rfl⟩ := ha
        obtain ⟨-, -, hcl, hcg⟩ := hI
        have hol : j + c.reverse.length ≤ l.length := by rw [List.length_reverse, hcl]; exact hle
        intro heq
        apply hne
        apply List.ext_getElem?
        intro p
        rw [overwrite_get hol, List.length_reverse, hcl]
        split
        · next hp =>
          have e1 : (overwrite l j c.reverse)[n - 1 - p]? = (turned n l)[n - 1 - p]? := by rw [heq]
          rw [overwrite_get hol, List.length_reverse, hcl, if_neg (by omega), turned_get hn, if_pos (by omega)] at e1
          have e2 := hcg (j + W - 1 - p) (by omega)
          rw [List.getElem?_reverse (by omega), hcl]
          have e3 : W - 1 - (p - j) = j + W - 1 - p := by omega
          rw [e3, e2, turned_get hn, if_pos (by omega)]
          have e4 : j + W - 1 - (j + W - 1 - p) = p := by omega
          rw [e4, e1]
          congr 1
          omega
        · rfl
      · cases ha
    | half a =>
      dsimp only at ha hI
      split at ha
      · next hle =>
        simp only [Option.some.injEq, Prod.mk.injEq] at ha
        obtain ⟨-, rfl⟩ := ha
        obtain ⟨hM, hal, hag⟩ := hI
        have hol : n - j - W + a.reverse.length ≤ l.length := by rw [List.length_reverse, hal]; exact hle
        refine absurd ?_ hne
        apply List.ext_getElem?
        intro p
        rw [overwrite_get hol, List.length_reverse, hal]
        split
        · next hp =>
          rw [List.getElem?_reverse (by omega), hal, hag _ (by omega)]
          have e1 := hM (n - 1 - p)
          rw [if_neg (by omega), turned_get hn, if_pos (by omega)] at e1
          have e2 : n - 1 - (j + (W - 1 - (p - (n - j - W)))) = p := by omega
          have e3 : n - 1 - (n - 1 - p) = p := by omega
          rw [e2, turned_get hn, if_pos (by omega), e1, e3]
        · rfl
      · cases ha

theorem revInv_beyond {r : Rev Int} {cs tgt : List Int} (h : RevInv r cs tgt) {p : Nat} (hp : r.count ≤ p) : cs[p]? = tgt[p]? := by
  obtain ⟨blk, n, todo, reg⟩ := r
  obtain ⟨-, -, i, -, hI⟩ := h
  have key : ∀ lo hi, Mixed n lo hi cs tgt → cs[p]? = tgt[p]? := by
    intro lo hi hM
    have := hM p
    rwa [if_neg (by dsimp only at hp; omega)] at this
  cases todo with
  | nil => exact key _ _ hI
  | cons q rest =>
    cases reg with
    | idle => exact key _ _ hI
    | lower a => exact key _ _ hI.1
    | both a c => exact key _ _ hI.1
    | half a => exact key _ _ hI.1

/-- Some number of accesses later, memory is neither as it was nor as it will be. -/
theorem torn {t o b n : Nat} {cs : List Int} (hne : cs ≠ turned n cs) : ∀ (m : Nat) (s : State) (r : Rev Int), r.left = m →
    s.tasks t = some (.rev o r) → r.blk = some b → r.count = n → s.w.mem b = some cs → RevInv r cs (turned n cs) →
    ∃ k s' cs', run cfg K grow s (List.replicate k (.tick t)) = .ok (s', List.replicate k .quiet) ∧ s'.w.objs = s.w.objs ∧
      s'.w.mem b = some cs' ∧ cs' ≠ cs ∧ cs' ≠ turned n cs ∧ ∀ p, n ≤ p → cs'[p]? = (turned n cs)[p]? := by
  intro m
  induction m with
  | zero =>
    intro s r hl ht hb hc hm hI
    refine absurd (revInv_done hI ?_) hne
    obtain ⟨blk, count, todo, reg⟩ := r
    cases todo with
    | nil => rfl
    | cons q rest => cases reg <;> simp [Rev.left] at hl
  | succ m ih =>
    intro s r hl ht hb hc hm hI
    have hd : r.todo ≠ [] := fun hd => hne (revInv_done hI hd)
    obtain ⟨r', cs', g1, g2, g3, g4⟩ := revInv_access hI hd
    have hs := tick_rev (cfg := cfg) (K := K) (grow := grow) ht hb hm g1 hd
    have hlr := access_left g1
    by_cases e : cs' = cs
    · subst e
      obtain ⟨k, s', ds, q1, q2, q3, q4, q5, q6⟩ := ih
        ⟨{ s.w with mem := upd s.w.mem b (some cs') }, upd s.tasks t (some (.rev o r'))⟩ r' (by omega) (upd_same _ _ _)
        (g3.trans hb) (g4.trans hc) (upd_same _ _ _) g2
      refine ⟨k + 1, s', ds, ?_, q2, q3, q4, q5, q6⟩
      rw [List.replicate_succ, List.replicate_succ]
      exact run_cons hs q1
    · subst hc
      refine ⟨1, _, cs', run_cons hs rfl, rfl, upd_same _ _ _, e, half_seen hI g1 e, fun p hp => ?_⟩
      exact revInv_beyond g2 (by rw [g4]; exact hp)

/-- Left alone, `reverse` ends with the elements in opposite order. -/
theorem rev_ends {t o b n : Nat} {tgt : List Int} : ∀ (m : Nat) (s : State) (r : Rev Int) (cs : List Int), r.left = m →
    s.tasks t = some (.rev o r) → r.blk = some b → r.count = n → s.w.mem b = some cs → RevInv r cs tgt →
    ∃ s', run cfg K grow s (List.replicate (m + 1) (.tick t)) = .ok (s', List.replicate m .quiet ++ [.ret (.ret .none)]) ∧
      s'.w.objs = s.w.objs ∧ s'.w.mem b = some tgt ∧ (∀ c, c ≠ b → s'.w.mem c = s.w.mem c) ∧ s'.tasks = upd s.tasks t none := by
  intro m
  induction m with
  | zero =>
    intro s r cs hl ht hb hc hm hI
    have hd : r.todo = [] := by
      obtain ⟨blk, count, todo, reg⟩ := r
      cases todo with
      | nil => rfl
      | cons q rest => cases reg <;> simp [Rev.left] at hl
    have := revInv_done hI hd
    subst this
    refine ⟨⟨s.w, upd s.tasks t none⟩, ?_, rfl, hm, fun _ _ => rfl, rfl⟩
    refine run_cons (s' := ⟨s.w, upd s.tasks t none⟩) ?_ rfl
    simp only [step]
    unfold tick
    rw [ht]
    exact if_pos hd
  | succ m ih =>
    intro s r cs hl ht hb hc hm hI
    have hd : r.todo ≠ [] := by
      intro hd
      obtain ⟨blk, count, todo, reg⟩ := r
      cases hd
      simp [Rev.left] at hl
    obtain ⟨r', cs', g1, g2, g3, g4⟩ := revInv_access hI hd
    have hs := tick_rev (cfg := cfg) (K := K) (grow := grow) ht hb hm g1 hd
    have hlr := access_left g1
    obtain ⟨s', q1, q2, q3, q4, q5⟩ := ih
      ⟨{ s.w with mem := upd s.w.mem b (some cs') }, upd s.tasks t (some (.rev o r'))⟩ r' cs' (by omega) (upd_same _ _ _)
      (g3.trans hb) (g4.trans hc) (upd_same _ _ _) g2
    refine ⟨s', ?_, q2, q3, fun c hc => (q4 c hc).trans (upd_other _ _ hc), ?_⟩
    · rw [List.replicate_succ, List.replicate_succ]
      exact run_cons hs q1
    · rw [q5]
      funext p
      by_cases e : p = t
      · subst e; rw [upd_same, upd_same]
      · rw [upd_other _ _ e, upd_other _ _ e]; exact upd_other _ _ e

end Verif.Threads
