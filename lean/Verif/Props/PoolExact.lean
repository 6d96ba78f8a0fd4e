import Verif.Lemmas.Pool
import Verif.Props.Pool

/-!
# C50, exactly: which schedules run every started task with its captured state alive
-/

namespace Verif.Props

open Verif.Pool Verif.Spec

private theorem exec_split (n : Nat) (as bs : List Label) : ∀ s u : St, exec n s (as ++ bs) = some u →
    ∃ t, exec n s as = some t ∧ exec n t bs = some u := by
  induction as with
  | nil => intro s u h; exact ⟨s, rfl, h⟩
  | cons a as ih =>
    intro s u h
    rw [List.cons_append] at h
    unfold exec at h
    cases hs : step n s a with
    | none => rw [hs] at h; cases h
    | some s' =>
      rw [hs] at h
      obtain ⟨t, h1, h2⟩ := ih s' u h
      exact ⟨t, by unfold exec; rw [hs]; exact h1, h2⟩

private theorem step_returns {n : Nat} {s t : St} {l : Label} {k : Nat} (hl : step n s l = some t) (hk : t.frames k = .gone) :
    s.frames k = .gone ∨ l = .drop k := by
  have hc := step_alive hl
  have key : ∀ j f, f ≠ .gone → upd s.frames j f k = .gone → s.frames k = .gone := by
    intro j f hf h
    by_cases e : k = j
    · subst e; rw [upd_same] at h; exact absurd h hf
    · rw [upd_other _ _ e] at h; exact h
  unfold step at hl
  rw [if_neg (by rw [hc]; simp)] at hl
  cases l with
  | call j =>
    simp only at hl
    split at hl
    · cases hl; exact .inl (key j _ (by simp) hk)
    · cases hl
  | lock j =>
    simp only at hl
    split at hl
    · cases hl; exact .inl (key j _ (by simp) hk)
    · cases hl
  | push j wake =>
    simp only at hl
    split at hl
    · (repeat' split at hl) <;> cases hl <;> exact .inl (key j .pushed (by simp) hk)
    · cases hl
  | unlock j =>
    simp only at hl
    split at hl
    · cases hl; exact .inl (key j _ (by simp) hk)
    · cases hl
  | drop j =>
    simp only at hl
    split at hl
    · cases hl
      by_cases e : k = j
      · subst e; exact .inr rfl
      · left
        simp only [upd_other _ _ e] at hk
        exact hk
    · cases hl
  | _ => simp only at hl; (repeat' split at hl) <;> cases hl <;> exact .inl hk

private theorem exec_returns (n : Nat) (ls : List Label) {k : Nat} : ∀ s t : St, exec n s ls = some t → t.frames k = .gone →
    s.frames k = .gone ∨ ∃ as bs, ls = as ++ .drop k :: bs := by
  induction ls with
  | nil => intro s t h hk; cases h; exact .inl hk
  | cons l ls ih =>
    intro s t h hk
    unfold exec at h
    cases hs : step n s l with
    | none => rw [hs] at h; cases h
    | some s' =>
      rw [hs] at h
      rcases ih s' t h hk with hg | ⟨as, bs, rfl⟩
      · rcases step_returns hs hg with hg | rfl
        · exact .inl hg
        · exact .inr ⟨[], ls, rfl⟩
      · exact .inr ⟨l :: as, bs, rfl⟩

private theorem step_crash {n : Nat} {s t : St} {l : Label} (hl : step n s l = some t) (hc : t.crashed = true) :
    (∃ k, l = .drop k ∧ isRunning n s k = true) ∨
    ∃ i k, l = .begin i ∧ s.workers i = .holding k ∧ s.frames k = .gone ∧ t.begun = s.begun ++ [k] := by
  have ha := step_alive hl
  unfold step at hl
  rw [if_neg (by rw [ha]; simp)] at hl
  cases l with
  | drop j =>
    simp only at hl
    split at hl
    · cases hl; exact .inl ⟨j, rfl, hc⟩
    · cases hl
  | begin i =>
    simp only at hl
    split at hl
    · next k hw =>
      split at hl
      · cases hl; exact .inr ⟨i, k, rfl, hw, by simpa using hc, rfl⟩
      · cases hl
    · cases hl
  | _ =>
    exfalso
    simp only at hl
    (repeat' split at hl) <;> cases hl <;> simp [pushed, ha] at hc

private theorem exec_crashed {n : Nat} {ls : List Label} {s t : St} (hc : s.crashed = true) (h : exec n s ls = some t) : t = s := by
  cases ls with
  | nil => cases h; rfl
  | cons l ls =>
    unfold exec at h
    cases hs : step n s l with
    | none => rw [hs] at h; cases h
    | some s' => have := step_alive hs; rw [hc] at this; cases this

/-- A schedule has no undefined behaviour exactly if each call of `submit` in it returns while its task is not running, and
returns after its task was started, unless the task is not started in the schedule at all. -/
theorem C50_valid_exact (n : Nat) (ls : List Label) (s : St) (h : exec n init ls = some s) :
    s.crashed = false ↔ ∀ as bs k t, ls = as ++ .drop k :: bs → exec n init as = some t →
      (∀ i, i < n → t.workers i ≠ .running k) ∧ (k ∈ t.begun ∨ k ∉ s.begun) := by
  constructor
  · intro hc as bs k t e ht
    subst e
    obtain ⟨t', h1, h2⟩ := exec_split n as _ _ _ h
    rw [ht] at h1
    cases h1
    unfold exec at h2
    cases hs : step n t (.drop k) with
    | none => rw [hs] at h2; cases h2
    | some u =>
      rw [hs] at h2
      have ha := step_alive hs
      have hu : u = { t with frames := upd t.frames k .gone, crashed := isRunning n t k } := by
        unfold step at hs
        rw [if_neg (by rw [ha]; simp)] at hs
        simp only at hs
        split at hs
        · cases hs; rfl
        · cases hs
      have hur : isRunning n t k = false := by
        cases hr : isRunning n t k with
        | false => rfl
        | true =>
          have huc : u.crashed = true := by rw [hu]; exact hr
          have := exec_crashed huc h2
          rw [this, huc] at hc
          cases hc
      refine ⟨?_, ?_⟩
      · intro i hi hw
        have : isRunning n t k = true := by
          simp only [isRunning, List.any_eq_true, List.mem_range, decide_eq_true_eq]
          exact ⟨i, hi, hw⟩
        rw [hur] at this
        cases this
      · by_cases hk : k ∈ t.begun
        · exact .inl hk
        · right
          intro hb
          have := exec_dangling bs u s h2 (k := k) (by rw [hu]; exact upd_same _ _ _) (by rw [hu]; exact hk) hb
          rw [hc] at this
          cases this
  · intro hp
    cases hc : s.crashed with
    | false => rfl
    | true =>
      exfalso
      rcases List.eq_nil_or_concat ls with rfl | ⟨as, l, rfl⟩
      · cases h; cases hc
      · rw [List.concat_eq_append] at h hp
        obtain ⟨u, h1, h2⟩ := exec_split n as [l] _ _ h
        unfold exec at h2
        cases hs : step n u l with
        | none => rw [hs] at h2; cases h2
        | some v =>
          rw [hs] at h2
          cases h2
          rcases step_crash hs hc with ⟨k, rfl, hr⟩ | ⟨i, k, rfl, hw, hg, hb⟩
          · simp only [isRunning, List.any_eq_true, List.mem_range, decide_eq_true_eq] at hr
            obtain ⟨i, hi, hw⟩ := hr
            exact (hp as [] k u rfl h1).1 i hi hw
          · rcases exec_returns n as _ _ h1 hg with h0 | ⟨as', bs', rfl⟩
            · cases h0
            · obtain ⟨t, ht, ht'⟩ := exec_split n as' _ _ _ h1
              have hkb : k ∈ s.begun := by rw [hb]; simp
              rcases (hp as' (bs' ++ [.begin i]) k t (by simp) ht).2 with hk | hk
              · obtain ⟨x, hx⟩ := exec_begun_prefix _ _ _ ht'
                have hku : k ∈ u.begun := by rw [hx]; simp [hk]
                have hnd := inv_begun_nodup (inv_exec _ _ _ (inv_init n) h)
                rw [hb, List.nodup_append] at hnd
                exact hnd.2.2 k hku k (by simp) rfl
              · exact hk hkb

/-! ### Both cases occur -/

/-- A call that returns after its task has ended, and one that returns before. -/
example : (exec 1 init [.call 7, .lock 7, .push 7 none, .unlock 7, .poll 0, .begin 0, .finish 0, .drop 7]).map
    (fun s => (s.crashed, s.begun)) = some (false, [7]) := by decide

example : (exec 1 init [.call 7, .lock 7, .push 7 none, .unlock 7, .drop 7, .poll 0, .begin 0]).map
    (fun s => (s.crashed, s.begun)) = some (true, [7]) := by decide

/-- Returning first is harmless if the task is never started. -/
example : (exec 1 init [.call 7, .lock 7, .push 7 none, .unlock 7, .drop 7, .close, .poll 0]).map
    (fun s => (s.crashed, s.begun)) = some (false, []) := by decide

end Verif.Props
