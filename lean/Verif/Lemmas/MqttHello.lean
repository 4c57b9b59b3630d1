import Verif.Spec.MqttHello

/-!
# Lemmas for C98
-/

namespace Verif.MqttHello

open Verif.Spec.MqttHello

theorem count_call {e : Env} {s : State} (h : s.count = total e s.calls) (c : Call) :
    (call e c s).count = total e (call e c s).calls := by
  show s.count + _ = _ + total e s.calls
  rw [h, Nat.add_comm]

/-- The loop: some calls of `yield()`. -/
theorem wait_calls {e : Env} (k fuel : Nat) {s t : State} (h : s.count = total e s.calls) (hw : wait e k fuel s = some t) :
    (∃ n, t.calls = List.replicate n .yield ++ s.calls) ∧ t.count = total e t.calls ∧ t.count ≠ k := by
  induction fuel generalizing s with
  | zero => exact absurd hw (by simp [wait])
  | succ fuel ih =>
    unfold wait at hw
    split at hw
    · obtain ⟨⟨n, hn⟩, h2, h3⟩ := ih (count_call h .yield) hw
      refine ⟨⟨n + 1, ?_⟩, h2, h3⟩
      rw [hn]
      show List.replicate n Call.yield ++ Call.yield :: s.calls = _
      rw [List.replicate_succ']
      simp
    · next hk =>
      injection hw with hw
      subst hw
      exact ⟨⟨0, rfl⟩, h, hk⟩

theorem wait_mono {e : Env} (k : Nat) {f g : Nat} (hfg : f ≤ g) {s t : State} (hw : wait e k f s = some t) :
    wait e k g s = some t := by
  induction f generalizing s g with
  | zero => exact absurd hw (by simp [wait])
  | succ f ih =>
    cases g with
    | zero => omega
    | succ g =>
      unfold wait at hw ⊢
      split
      · next hk => rw [if_pos hk] at hw; exact ih (by omega) hw
      · next hk => rw [if_neg hk] at hw; exact hw

theorem message_calls {e : Env} (fuel q : Nat) (b : Bool) {s t : State} (h : s.count = total e s.calls)
    (hm : message e fuel q b s = some t) :
    (∃ n, t.calls = List.replicate n .yield ++ .publish q :: s.calls) ∧ t.count = total e t.calls := by
  unfold message at hm
  dsimp only at hm
  split at hm
  · obtain ⟨⟨n, hn⟩, h2, _⟩ := wait_calls q fuel (count_call h (.publish q)) hm
    exact ⟨⟨n, hn⟩, h2⟩
  · injection hm with hm
    subst hm
    exact ⟨⟨0, rfl⟩, count_call h _⟩

theorem message_mono {e : Env} (q : Nat) (b : Bool) {f g : Nat} (hfg : f ≤ g) {s t : State}
    (hm : message e f q b s = some t) : message e g q b s = some t := by
  unfold message at hm ⊢
  dsimp only at hm ⊢
  split
  · next hc => rw [if_pos hc] at hm; exact wait_mono q hfg hm
  · next hc => rw [if_neg hc] at hm; exact hm

theorem published_yields (n : Nat) (h : List Call) : published (List.replicate n .yield ++ h) = published h := by
  induction n with
  | zero => rfl
  | succ n ih => exact ih

/-- If one message is missing and nothing else comes, the loop ends when it has come. -/
theorem wait_quiet {e : Env} (he : Quiet e) (q k : Nat) {s : State} (h : s.count = total e s.calls) (hq : s.count = q)
    (hp : published s.calls = q + 1) (hk : q < total e (List.replicate k .yield ++ s.calls)) :
    ∃ t fuel, wait e q fuel s = some t ∧ t.count = q + 1 := by
  induction k generalizing s with
  | zero => exact absurd hk (by show ¬ q < total e s.calls; omega)
  | succ k ih =>
    have h1 := count_call (e := e) h .yield
    have h2 := he.own (call e .yield s).calls
    have h3 : published (call e .yield s).calls = q + 1 := hp
    by_cases hc : (call e .yield s).count = q
    · obtain ⟨t, f, a, b⟩ := ih h1 hc h3 (by
        have : List.replicate (k + 1) Call.yield ++ s.calls = List.replicate k .yield ++ (call e .yield s).calls := by
          rw [List.replicate_succ']; simp [call]
        rw [← this]; exact hk)
      refine ⟨t, f + 1, ?_, b⟩
      unfold wait
      rw [if_pos hq]; exact a
    · refine ⟨call e .yield s, 2, ?_, ?_⟩
      · unfold wait
        rw [if_pos hq]
        unfold wait
        rw [if_neg hc]
      · have : q ≤ (call e .yield s).count := by
          show q ≤ s.count + _
          omega
        omega

theorem message_quiet {e : Env} (he : Quiet e) (q : Nat) (b : Bool) {s : State} (h : s.count = total e s.calls) (hq : s.count = q)
    (hp : published s.calls = q) :
    ∃ t fuel, message e fuel q b s = some t ∧ t.count = q + 1 := by
  have h1 := count_call (e := e) h (.publish q)
  have h2 := he.own (call e (.publish q) s).calls
  have h3 : published (call e (.publish q) s).calls = q + 1 := by show published s.calls + 1 = _; rw [hp]
  have hok : e.ok (call e (.publish q) s).calls = true := he.accepts q s.calls
  have hge : q ≤ (call e (.publish q) s).count := by
    show q ≤ s.count + _
    omega
  by_cases hc : (call e (.publish q) s).count = q
  · obtain ⟨k, hk⟩ := he.comes (call e (.publish q) s).calls (by omega)
    obtain ⟨t, f, a, d⟩ := wait_quiet he q k h1 hc h3 (by omega)
    refine ⟨t, f, ?_, d⟩
    unfold message
    dsimp only
    rw [hok]
    exact a
  · refine ⟨call e (.publish q) s, 1, ?_, by omega⟩
    unfold message
    dsimp only
    rw [hok]
    show wait e q 1 _ = _
    unfold wait
    rw [if_neg hc]

/-- The state before the first message. -/
def begun (e : Env) : State := call e .subscribe (call e .connect ⟨[], 0⟩)

theorem begun_count (e : Env) : (begun e).count = total e (begun e).calls :=
  count_call (count_call (s := ⟨[], 0⟩) rfl .connect) .subscribe

theorem main_some {e : Env} {fuel : Nat} {t : State} (h : main e fuel = some t) :
    ∃ s₁ s₂ s₃, message e fuel 0 false (begun e) = some s₁ ∧ message e fuel 1 false s₁ = some s₂ ∧
      message e fuel 2 true s₂ = some s₃ ∧ t = call e .disconnect (call e .unsubscribe s₃) := by
  unfold main at h
  dsimp only at h
  split at h
  · cases h
  · next s₁ e1 =>
    split at h
    · cases h
    · next s₂ e2 =>
      split at h
      · cases h
      · next s₃ e3 =>
        injection h with h
        exact ⟨s₁, s₂, s₃, e1, e2, e3, h.symm⟩

theorem main_of {e : Env} {fuel : Nat} {s₁ s₂ s₃ : State} (e1 : message e fuel 0 false (begun e) = some s₁)
    (e2 : message e fuel 1 false s₁ = some s₂) (e3 : message e fuel 2 true s₂ = some s₃) :
    main e fuel = some (call e .disconnect (call e .unsubscribe s₃)) := by
  have e1' : message e fuel 0 false (call e .subscribe (call e .connect ⟨[], 0⟩)) = some s₁ := e1
  unfold main
  dsimp only
  rw [e1']
  dsimp only
  rw [e2]
  dsimp only
  rw [e3]

end Verif.MqttHello
