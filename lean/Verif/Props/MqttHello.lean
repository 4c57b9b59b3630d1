import Verif.Lemmas.MqttHello

/-!
# Property C98: the messages of the MQTT examples
-/

namespace Verif.Props.MqttHello

open Verif.MqttHello Verif.Spec.MqttHello

theorem before_yields (c : Call) (hc : c ≠ .yield) (n : Nat) (h : List Call) :
    before c (List.replicate n .yield ++ h) = before c h := by
  induction n with
  | zero => rfl
  | succ n ih =>
    show (if c = .yield then _ else before c (List.replicate n .yield ++ h)) = _
    rw [if_neg hc, ih]

/-- **C98.** Whatever the client and the broker do: if the program comes to its end, the calls were those of the text, and the
number it prints is that of the messages that arrived. -/
theorem C98_text (e : Env) (fuel : Nat) (t : State) (h : main e fuel = some t) :
    (∃ a b c, t.calls.reverse = run a b c) ∧ t.count = total e t.calls := by
  obtain ⟨s₁, s₂, s₃, e1, e2, e3, rfl⟩ := main_some h
  obtain ⟨⟨a, ha⟩, c1⟩ := message_calls fuel 0 false (begun_count e) e1
  obtain ⟨⟨b, hb⟩, c2⟩ := message_calls fuel 1 false c1 e2
  obtain ⟨⟨c, hc⟩, c3⟩ := message_calls fuel 2 true c2 e3
  refine ⟨⟨a, b, c, ?_⟩, count_call (count_call c3 _) _⟩
  show (Call.disconnect :: Call.unsubscribe :: s₃.calls).reverse = _
  rw [hc, hb, ha]
  simp [run, begun, call]

/-- With a broker that accepts everything and on a topic nobody else uses: the program comes to its end with three messages, and
each message had come back before the next was published, the last before the program unsubscribes. -/
theorem C98_each (e : Env) (he : Quiet e) :
    ∃ fuel t, main e fuel = some t ∧ t.count = 3 ∧
      total e (before (.publish 1) t.calls) = 1 ∧ total e (before (.publish 2) t.calls) = 2 ∧
      total e (before .unsubscribe t.calls) = 3 := by
  have p0 : published (begun e).calls = 0 := rfl
  have z0 : (begun e).count = 0 := by
    have := he.own (begun e).calls
    rw [← begun_count e, p0] at this
    omega
  obtain ⟨s₁, f₁, e1, n1⟩ := message_quiet he 0 false (begun_count e) z0 p0
  obtain ⟨⟨a, ha⟩, c1⟩ := message_calls f₁ 0 false (begun_count e) e1
  have p1 : published s₁.calls = 1 := by
    rw [ha, published_yields]; rfl
  obtain ⟨s₂, f₂, e2, n2⟩ := message_quiet he 1 false c1 n1 p1
  obtain ⟨⟨b, hb⟩, c2⟩ := message_calls f₂ 1 false c1 e2
  have p2 : published s₂.calls = 2 := by
    rw [hb, published_yields]
    show published s₁.calls + 1 = 2
    rw [p1]
  obtain ⟨s₃, f₃, e3, n3⟩ := message_quiet he 2 true c2 n2 p2
  obtain ⟨⟨c, hc⟩, c3⟩ := message_calls f₃ 2 true c2 e3
  have p3 : published s₃.calls = 3 := by
    rw [hc, published_yields]
    show published s₂.calls + 1 = 3
    rw [p2]
  have m := main_of (message_mono 0 false (g := f₁ + f₂ + f₃) (by omega) e1) (message_mono 1 false (g := f₁ + f₂ + f₃) (by omega) e2)
    (message_mono 2 true (g := f₁ + f₂ + f₃) (by omega) e3)
  refine ⟨_, _, m, ?_, ?_, ?_, ?_⟩
  · have h1 := count_call (e := e) (count_call (e := e) c3 .unsubscribe) .disconnect
    have h2 := he.own (call e .disconnect (call e .unsubscribe s₃)).calls
    have h3 : published (call e .disconnect (call e .unsubscribe s₃)).calls = 3 := p3
    have h4 : s₃.count ≤ (call e .disconnect (call e .unsubscribe s₃)).count := by
      show s₃.count ≤ s₃.count + _ + _
      omega
    omega
  · have : before (.publish 1) (call e .disconnect (call e .unsubscribe s₃)).calls = s₁.calls := by
      show before (.publish 1) s₃.calls = _
      rw [hc, before_yields _ (by simp)]
      show before (.publish 1) s₂.calls = _
      rw [hb, before_yields _ (by simp)]
      rfl
    rw [this, ← c1, n1]
  · have : before (.publish 2) (call e .disconnect (call e .unsubscribe s₃)).calls = s₂.calls := by
      show before (.publish 2) s₃.calls = _
      rw [hc, before_yields _ (by simp)]
      rfl
    rw [this, ← c2, n2]
  · show total e s₃.calls = 3
    rw [← c3, n3]

/-- The expectation that the program comes to its end is false: the first message is sent without confirmation; if it is lost and no
other message arrives, the program waits for ever. -/
theorem C98_lost (e : Env) (h0 : ∀ h, e.arrive h = 0)
    (hok : e.ok [.publish 0, .subscribe, .connect] = true) (fuel : Nat) : main e fuel = none := by
  have hw : ∀ (fuel : Nat) (s : State), s.count = 0 → wait e 0 fuel s = none := by
    intro fuel
    induction fuel with
    | zero => intro s _; rfl
    | succ fuel ih =>
      intro s hs
      unfold wait
      rw [if_pos hs]
      exact ih _ (by show s.count + _ = 0; rw [hs, h0])
  have hm : message e fuel 0 false (call e .subscribe (call e .connect ⟨[], 0⟩)) = none := by
    unfold message
    dsimp only
    have : e.ok (call e (.publish 0) (call e .subscribe (call e .connect ⟨[], 0⟩))).calls = true := hok
    rw [this]
    exact hw fuel _ (by simp [call, h0])
  unfold main
  dsimp only
  rw [hm]

/-- The expectation that the program waits for its own messages is false: it counts all messages of the topic. If one of someone else
arrives upon subscribing, a message that is kept by the broker for instance, the program does not wait for its first message. -/
theorem C98_foreign (e : Env) (fuel : Nat) (hf : 1 ≤ e.arrive [.subscribe, .connect]) (t : State) (h : main e fuel = some t) :
    before (.publish 1) t.calls = [.publish 0, .subscribe, .connect] := by
  obtain ⟨s₁, s₂, s₃, e1, e2, e3, rfl⟩ := main_some h
  obtain ⟨_, c1⟩ := message_calls fuel 0 false (begun_count e) e1
  obtain ⟨⟨b, hb⟩, c2⟩ := message_calls fuel 1 false c1 e2
  obtain ⟨⟨c, hc⟩, c3⟩ := message_calls fuel 2 true c2 e3
  have e0 : s₁.calls = [.publish 0, .subscribe, .connect] := by
    unfold message at e1
    dsimp only at e1
    split at e1
    · cases fuel with
      | zero => exact absurd e1 (by simp [wait])
      | succ fuel =>
        unfold wait at e1
        rw [if_neg (by
          show ¬ (0 + e.arrive [.connect] + e.arrive [.subscribe, .connect] + _ = 0)
          omega)] at e1
        injection e1 with e1
        rw [← e1]; rfl
    · injection e1 with e1
      rw [← e1]; rfl
  show before (.publish 1) s₃.calls = _
  rw [hc, before_yields _ (by simp)]
  show before (.publish 1) s₂.calls = _
  rw [hb, before_yields _ (by simp)]
  show s₁.calls = _
  exact e0

/-- If the first message cannot be published and none arrives, the program waits for none of the others either, although they may have been
published: it compares the count with a number that assumes all the messages before have come. -/
theorem C98_failed (e : Env) (fuel : Nat) (h0 : ∀ h, e.arrive h = 0) (hok : e.ok [.publish 0, .subscribe, .connect] = false) :
    ∃ t, main e (fuel + 1) = some t ∧ t.calls.reverse = run 0 0 0 ∧ t.count = 0 := by
  have m0 : message e (fuel + 1) 0 false (begun e) = some ⟨[.publish 0, .subscribe, .connect], 0⟩ := by
    unfold message
    dsimp only
    have : e.ok (call e (.publish 0) (begun e)).calls = false := hok
    rw [this]
    simp [call, begun, h0]
  have key : ∀ (q : Nat) (b : Bool) (s : State), q ≠ 0 → s.count = 0 →
      message e (fuel + 1) q b s = some ⟨.publish q :: s.calls, 0⟩ := by
    intro q b s hq hs
    have hc : (call e (.publish q) s) = ⟨.publish q :: s.calls, 0⟩ := by simp [call, h0, hs]
    unfold message
    dsimp only
    rw [hc]
    split
    · unfold wait
      rw [if_neg (by show ¬ (0 = q); omega)]
    · rfl
  refine ⟨_, main_of m0 (key 1 false _ (by decide) rfl) (key 2 true _ (by decide) rfl), ?_, ?_⟩
  · simp [call, run]
  · simp [call, h0]

/-! Witnesses -/

/-- A broker whose message comes with the second call of `yield()` after it was published. -/
def broker : Env where
  ok _ := true
  arrive
    | .yield :: .yield :: .publish _ :: _ => 1
    | _ => 0

example : (main broker 3).map (fun t => (t.count, t.calls.reverse)) = some (3, run 2 2 2) := by decide

/-- A broker whose messages come one with each call of `yield()`: how many have come. -/
def come : List Call → Nat
  | [] => 0
  | .yield :: h => if come h < published h then come h + 1 else come h
  | _ :: h => come h

/-- This broker. -/
def steady : Env where
  ok _ := true
  arrive
    | .yield :: h => if come h < published h then 1 else 0
    | _ => 0

theorem steady_total (h : List Call) : total steady h = come h := by
  induction h with
  | nil => rfl
  | cons c h ih =>
    unfold total
    rw [ih]
    cases c with
    | yield =>
      show (if come h < published h then 1 else 0) + come h = if come h < published h then come h + 1 else come h
      split <;> omega
    | _ => exact Nat.zero_add _

theorem come_le (h : List Call) : come h ≤ published h := by
  induction h with
  | nil => exact Nat.le_refl _
  | cons c h ih =>
    cases c with
    | yield =>
      show (if come h < published h then come h + 1 else come h) ≤ published h
      split <;> omega
    | publish q => exact Nat.le_succ_of_le ih
    | _ => exact ih

example : Quiet steady where
  accepts _ _ := rfl
  own h := by rw [steady_total]; exact come_le h
  comes h hl := ⟨1, by
    rw [steady_total] at hl ⊢
    rw [steady_total]
    show come h < if come h < published h then come h + 1 else come h
    rw [if_pos hl]; omega⟩

example : (main steady 2).map (fun t => (t.count, t.calls.reverse)) = some (3, run 1 1 1) := by decide

/-- A message of someone else arrives upon subscribing, the own ones never: all the same the program comes to the second message. -/
def stranger : Env where
  ok _ := true
  arrive
    | [.subscribe, .connect] => 1
    | .yield :: _ => 1
    | _ => 0

example : (main stranger 3).map (fun t => (t.count, t.calls.reverse)) = some (3, run 0 1 1) := by decide

end Verif.Props.MqttHello
