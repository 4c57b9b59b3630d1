import Verif.Lemmas.Ntp
import Verif.Spec.NtpSession
import Verif.Props.Thread

/-!
# C87: the end-of-line test examples/linux/autodetectntp.cpp

Any detector and driver, and anything they and the rest of the world do.
-/

namespace Verif.Props.Ntp

open Verif.Ntp Spec.Ntp

variable {D : Type} {api : Client.Api D}

theorem inv {G t0 : Nat} {d : D} {xs : List (Nat × (World D → World D))} {st : Duff.St (World D)} (h : Runs api G t0 d xs st) :
    Inv G t0 (final t0 (xs.map (·.1))) st := by
  obtain ⟨hp, hG, hx, junk, t, ht, hc⟩ := h
  obtain ⟨s1, c1, i1⟩ := first_call (api := api) ht G t0 (u := start d junk) rfl rfl rfl
  obtain ⟨s2, c2, i2⟩ := later_calls (api := api) hG hx hp i1
  rw [Thread.C83_determined hc (.cons c1 c2)]
  exact i2

/-- Every turn comes to its end. -/
theorem C87_returns {G t0 : Nat} {xs : List (Nat × (World D → World D))} (hp : Paced G t0 (xs.map (·.1))) (hG : G + 60000 < 4294967296)
    (hx : ∀ x ∈ xs, ∀ w, Others w (x.2 w)) (d : D) : ∃ st, Runs api G t0 d xs st := by
  obtain ⟨s1, c1, i1⟩ := first_call (api := api) (t0 := Task.init 0 0) rfl G t0 (u := start d []) rfl rfl rfl
  obtain ⟨s2, c2, _⟩ := later_calls (api := api) hG hx hp i1
  exact ⟨s2, hp, hG, hx, [], Task.init 0 0, rfl, .cons c1 c2⟩

/-- Whatever modem, server and driver do, the test ends: after 180 seconds and three times the distance of two turns at the latest. -/
theorem C87_ends {G t0 : Nat} {d : D} {xs : List (Nat × (World D → World D))} {st : Duff.St (World D)} (h : Runs api G t0 d xs st)
    (hl : final t0 (xs.map (·.1)) > t0 + 180000 + 3 * G) : st.user.exit ≠ none := by
  rcases (inv h).place with ⟨_, e, he, _⟩ | ⟨_, r, _, _, _, hw⟩
  · rw [he]; exact fun q => by cases q
  · rcases hw with ⟨_, _, _, h1, h2⟩ | ⟨_, _, _, _, h1, h2⟩ | ⟨_, _, _, _, h1, h2⟩ | ⟨_, _, h1, h2⟩ <;> omega

/-- The verdict tells how far the test has come: which calls were made, what was printed. The request is sent only while connected. -/
theorem C87_verdict {G t0 : Nat} {d : D} {xs : List (Nat × (World D → World D))} {st : Duff.St (World D)} (h : Runs api G t0 d xs st) :
    Verdict st.user := (inv h).verdict

/-- The test does not give up early. -/
theorem C87_patience {G t0 : Nat} {d : D} {xs : List (Nat × (World D → World D))} {st : Duff.St (World D)} (h : Runs api G t0 d xs st) {e : Exit}
    (he : st.user.exit = some e) : t0 + patience e ≤ final t0 (xs.map (·.1)) := by
  rcases (inv h).place with ⟨_, e', he', hp⟩ | ⟨hn, _⟩
  · rw [he] at he'
    cases he'
    exact hp
  · rw [he] at hn
    cases hn

/-- The time is right, from 1970 to 2106, also after 2036 when the seconds of NTP begin at 0 again. -/
theorem C87_time {u : Nat} (hu : u < 4294967296) {bs : List Byte} (hl : 44 ≤ bs.length)
    (hb : (bs.getD 40 0).toNat * 16777216 + (bs.getD 41 0).toNat * 65536 + (bs.getD 42 0).toNat * 256 + (bs.getD 43 0).toNat =
      (u + 2208988800) % 4294967296) : epoch (overlay bs) = u := by
  have e : ∀ i, i < 44 → (overlay bs).getD i 0 = bs.getD i 0 := fun i hi => by
    simp only [overlay, List.getD_eq_getElem?_getD]
    rw [List.getElem?_append_left (by omega)]
  simp only [epoch]
  rw [e _ (by omega), e _ (by omega), e _ (by omega), e _ (by omega), hb]
  omega

/-- A shorter answer is not noticed: the zeros of the request are taken for the time, and this time is accepted. -/
theorem C87_short {bs : List Byte} (hl : bs.length ≤ 40) : epoch (overlay bs) = 2085978496 ∧ epoch (overlay bs) > 1636647985 := by
  have z : ∀ i, 40 ≤ i → request.getD i 0 = 0 := by
    intro i hi
    obtain ⟨j, rfl⟩ := Nat.exists_eq_add_of_le' (show 1 ≤ i by omega)
    simp only [request, List.getD_eq_getElem?_getD, List.getElem?_cons_succ, List.getElem?_replicate]
    split <;> rfl
  have e : ∀ i, 40 ≤ i → (overlay bs).getD i 0 = 0 := fun i hi => by
    have := z i hi
    simp only [overlay, List.getD_eq_getElem?_getD] at this ⊢
    rw [List.getElem?_append_right (by omega), List.getElem?_drop, show bs.length + (i - bs.length) = i by omega]
    exact this
  have : epoch (overlay bs) = 2085978496 := by
    simp only [epoch]
    rw [e _ (by omega), e _ (by omega), e _ (by omega), e _ (by omega)]
    rfl
  exact ⟨this, by rw [this]; omega⟩

/-- So a device that has received three bytes of something passes the test. The time server was called by UDP, at port 123. -/
theorem C87_passes : ∃ st, Runs (driver (CC1352P7.step Sess.arm) []) 1 0 (true, Spec.Client.roomy Sess.cc1352p7) (turnsOf threeBytes) st ∧
    st.user.log = asked ++ [.read 3 b!"abc", .disconnect, .done true] ∧ st.user.printed = some 2085978496 ∧ st.user.exit = some .success ∧
    b!"ATE0\r\nAT+CIPSTART=\"UDP\",\"pool.ntp.org\",123\r\n" <+: st.user.dev.2.ser.sent := by
  have e : (callsN 80 (text (driver (CC1352P7.step Sess.arm) [])) (ticks ((0, id) :: turnsOf threeBytes))
      (Duff.init 0 (Task.init 0 0) (start (true, Spec.Client.roomy Sess.cc1352p7) []))).map
      (fun s => (s.user.log, s.user.printed, s.user.exit, s.user.dev.2.ser.sent.take 44)) =
      some (asked ++ [.read 3 b!"abc", .disconnect, .done true], some 2085978496, some .success,
        b!"ATE0\r\nAT+CIPSTART=\"UDP\",\"pool.ntp.org\",123\r\n") := by decide +kernel
  obtain ⟨s, h1, h2⟩ := Option.map_eq_some_iff.mp e
  simp only [Prod.mk.injEq] at h2
  refine ⟨s, ⟨?_, by omega, ?_, [], _, rfl, callsN_calls h1⟩, h2.1, h2.2.1, h2.2.2.1, by rw [← h2.2.2.2]; exact List.take_prefix _ _⟩
  · have : ∀ (ops : List Op) (n c : Nat), c ≤ n → n ≤ c + 1 → Paced 1 c (((ops.zipIdx n).map fun x => (x.2, meanwhile [x.1])).map (·.1)) := by
      intro ops
      induction ops with
      | nil => exact fun _ _ _ _ => trivial
      | cons op ops ih => exact fun n c h1 h2 => ⟨h1, h2, ih (n + 1) n (by omega) (by omega)⟩
    exact this _ 0 0 (by omega) (by omega)
  · intro x hx w
    obtain ⟨y, _, rfl⟩ := List.mem_map.mp hx
    exact ⟨rfl, rfl, rfl, rfl⟩

instance paced (G c : Nat) : ∀ ts, Decidable (Paced G c ts)
  | [] => .isTrue trivial
  | t :: ts => have := paced G t ts; inferInstanceAs (Decidable (c ≤ t ∧ t ≤ c + G ∧ Paced G t ts))

/-- A turn per second for 200 seconds. -/
example : Paced 1000 0 ((List.range 200).map (1000 * ·)) ∧ final 0 ((List.range 200).map (1000 * ·)) > 0 + 180000 + 3 * 1000 := by decide +kernel

/-- An answer of a server: 2026-11-16, 00:00 UTC. -/
example : epoch (overlay (List.replicate 40 7 ++ [0xee, 0xa4, 0xc6, 0] ++ List.replicate 4 1)) = 1794787200 := by decide +kernel

end Verif.Props.Ntp
