import Verif.Lemmas.Sequence

/-!
# Property C94: the sequence example
-/

namespace Verif.Props.Sequence

open Verif.Sequence Spec.Sequence

/-- C94, data: the `n`-th packet carries its number (32 bits) and the 76 bytes computed from it. -/
theorem C94_packets {e : Env} {fuel t0 n : Nat} {s : State} (h : rounds e fuel n (start t0) = some s) :
    s.sent.length = n ∧ ∀ i x, s.sent[i]? = some x → Carries (i % 4294967296) x.data := by
  have g := Going.all t0 n s h
  have hl : s.sent.length = n := by
    have := congrArg List.length g.data
    rwa [List.length_map, List.length_map, List.length_range] at this
  refine ⟨hl, fun i x hx => ?_⟩
  have h1 : (s.sent.map (·.data))[i]? = some x.data := by rw [List.getElem?_map, hx]; rfl
  rw [g.data, List.getElem?_map] at h1
  obtain ⟨j, hj, e1⟩ := Option.map_eq_some_iff.1 h1
  obtain ⟨_, rfl⟩ := List.getElem?_eq_some_iff.1 hj
  rw [← e1, List.getElem_range]
  exact carries _ (Nat.mod_lt _ (by decide))

/-- C94, pause: the next packet is published at least four seconds after `publish()` has returned, if the tick counter does not wrap around in
these four seconds. This expectation is false: that there is a pause after each packet. If the counter wraps around, there is none. -/
theorem C94_spaced {e : Env} {fuel t0 n : Nat} {s : State} (h : rounds e fuel n (start t0) = some s) : Spaced s.sent := (Going.all t0 n s h).spaced

theorem arith₁ (c d : Nat) : c / 4294967296 * 4294967296 + (c % 4294967296 + 4000) + d = c + 4000 + d := by omega

theorem arith₂ (c : Nat) : (c / 4294967296 + 1) * 4294967296 + (c % 4294967296 + 4000) = c + 4000 + 4294967296 := by omega

/-- The pause is not longer than four seconds and the duration of a call of `yield()`, and it ends, if the counter does not wrap around in
this time. -/
theorem C94_prompt (e : Env) (s : State) (d : Nat) (hd : ∀ n, e.yield n ≤ d) (h1 : ∀ n, 1 ≤ e.yield n)
    (hw : (publish e s).time % 4294967296 + 4000 + d < 4294967296) (fuel : Nat) (hf : 4000 < fuel) :
    ∃ t, round e fuel s = some t ∧ t.time < (publish e s).time + 4000 + d := by
  have he : ((publish e s).time % 4294967296 + 4000) % 4294967296 = (publish e s).time % 4294967296 + 4000 := Nat.mod_eq_of_lt (by omega)
  have h1' := h1 0
  have hd' := hd 0
  obtain ⟨u, hu⟩ := wait_ends (e := e) (endTime := (publish e s).time % 4294967296 + 4000) (q := (publish e s).time / 4294967296) hd h1 (by omega) 4000
    (publish e s) (by omega) (by omega) (by omega) fuel hf
  refine ⟨{ u with seq := (u.seq + 1) % 4294967296 }, ?_, ?_⟩
  · unfold round
    dsimp only
    rw [he, hu]
  · have := wait_by hd (show (publish e s).time % 4294967296 + 4000 + d ≤ _ by omega) (q := (publish e s).time / 4294967296) fuel _ (by omega) (by omega) hu
    exact Nat.lt_of_lt_of_eq this (arith₁ ..)

example : ∃ t, round ⟨fun _ => 100, fun _ => 4001⟩ 4001 (start 0) = some t ∧ t.time < 100 + 4000 + 4001 :=
  C94_prompt ⟨fun _ => 100, fun _ => 4001⟩ (start 0) 4001 (fun _ => Nat.le_refl _) (fun _ => show 1 ≤ 4001 by decide) (by decide +kernel) 4001 (by decide)

/-- This expectation is false: that the pause always ends soon. If the counter wraps around in the call of `yield()`, after the end of the pause
was computed, the next packet is published at least 49 days later. -/
theorem C94_stall {e : Env} {fuel : Nat} {s t : State} (hc : (publish e s).time % 4294967296 + 4000 < 4294967296)
    (h1 : 4294967296 ≤ (publish e s).time % 4294967296 + e.yield s.yields) (h : round e fuel s = some t) :
    t.time ≥ (publish e s).time + 4000 + 4294967296 := by
  obtain ⟨u, hu, rfl, _⟩ := round_split h
  rw [Nat.mod_eq_of_lt hc] at hu
  show u.time ≥ _
  cases fuel with
  | zero => cases hu
  | succ fuel =>
    unfold wait at hu
    rw [if_pos (by omega)] at hu
    have := (wait_until (q := (publish e s).time / 4294967296 + 1) _ _
      (show (publish e s).time + e.yield (publish e s).yields ≥ _ by
        have : (publish e s).yields = s.yields := rfl
        rw [this]
        omega) hu).1
    exact Nat.le_trans (Nat.le_of_eq (arith₂ _).symm) this

/-- Such a state; here the second call of `yield()` lasts very long. -/
example : ((publish ⟨fun _ => 0, fun n => if n = 0 then 4060 else 4294967266⟩ (start 4294963246)).time % 4294967296 + 4000 < 4294967296) ∧
    (round ⟨fun _ => 0, fun n => if n = 0 then 4060 else 4294967266⟩ 3 (start 4294963246)).map (·.time) = some 8589934572 := by decide +kernel

/-- Neither is this true: that there is a next packet. With calls of `yield()` that last 4096 ms the tick may never be seen at the end. -/
theorem C94_never (s : State) (pub : Nat → Nat) (hc : (publish ⟨pub, fun _ => 4096⟩ s).time % 4294967296 = 4294967296 - 4095) (fuel : Nat) :
    round ⟨pub, fun _ => 4096⟩ fuel s = none := by
  have key : ∀ fuel (s : State), s.time % 4096 = 1 → wait ⟨pub, fun _ => 4096⟩ (4294967296 - 95) fuel s = none := by
    intro fuel
    induction fuel with
    | zero => intro _ _; rfl
    | succ fuel ih =>
      intro s hs
      unfold wait
      rw [if_pos (by omega)]
      exact ih _ (show (s.time + 4096) % 4096 = 1 by omega)
  unfold round
  dsimp only
  rw [hc]
  rw [key fuel _ (by omega)]

example : (publish ⟨fun _ => 0, fun _ => 4096⟩ (start 4294963201)).time % 4294967296 = 4294967296 - 4095 := by decide +kernel

/-- This expectation is false: that the data differ from packet to packet. After the number they are the same for any two packets whose numbers
have the same low byte. -/
theorem C94_repeat (a b : Nat) (h : a % 256 = b % 256) : (payload a).drop 4 = (payload b).drop 4 := by
  show fill 76 a = fill 76 b
  rw [fill_noise, fill_noise]
  exact List.map_congr_left fun i _ => noise_low a b h i

/-- Three packets around the wrap-around: after the second one there is no pause. -/
example : (rounds ⟨fun _ => 100, fun _ => 4001⟩ 10 3 (start 4294959000)).map (fun s => s.sent.map fun x => (x.start, x.data.take 6)) =
    some [(4294959000, [0, 0, 0, 0, 57, 126]), (4294963101, [1, 0, 0, 0, 166, 231]), (4294967202, [2, 0, 0, 0, 19, 80])] := by decide +kernel

end Verif.Props.Sequence
