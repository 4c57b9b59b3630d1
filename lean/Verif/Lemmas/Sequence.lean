import Verif.Spec.Sequence

/-!
# The program examples/stm32f1/mqttsequence.cpp
-/

namespace Verif.Sequence

open Spec.Sequence

/-! ## The data -/

theorem rand_low (seed : Nat) : generateRand seed % 256 = (seed % 256 * 109 + 57) % 256 := by
  unfold generateRand
  omega

theorem noise_rand (seed i : Nat) : noise (generateRand seed) i = noise seed (i + 1) := by
  induction i with
  | zero => rw [noise, noise, noise, rand_low]
  | succ i ih => rw [noise, ih, noise.eq_2 seed (i + 1)]

theorem fill_noise : ∀ (n seed : Nat), fill n seed = (List.range n).map (noise seed) := by
  intro n
  induction n with
  | zero => intro _; rfl
  | succ n ih =>
    intro seed
    rw [List.range_succ_eq_map, List.map_cons, List.map_map, fill, ih, rand_low, noise]
    refine congrArg (_ :: ·) (List.map_congr_left fun i _ => ?_)
    exact noise_rand seed i

theorem noise_lt (seq i : Nat) : noise seq i < 256 := by
  cases i <;> exact Nat.mod_lt _ (by decide)

theorem noise_low (a b : Nat) (h : a % 256 = b % 256) (i : Nat) : noise a i = noise b i := by
  induction i with
  | zero => show (a % 256 * 109 + 57) % 256 = _; rw [h]; rfl
  | succ i ih => show (noise a i * 109 + 57) % 256 = _; rw [ih]; rfl

theorem carries (seq : Nat) (h : seq < 4294967296) : Carries seq (payload seq) := by
  refine ⟨?_, ?_, ?_, ?_⟩
  · unfold payload
    rw [fill_noise]
    simp
  · show seq % 256 + 256 * (seq / 256 % 256) + 65536 * (seq / 65536 % 256) + 16777216 * (seq / 16777216 % 256) = seq
    omega
  · intro x hx
    unfold payload at hx
    rw [fill_noise, List.mem_append] at hx
    rcases hx with hx | hx
    · simp only [List.mem_cons, List.not_mem_nil, or_false] at hx
      omega
    · obtain ⟨i, _, rfl⟩ := List.mem_map.1 hx
      exact noise_lt _ _
  · show fill 76 seq = _
    exact fill_noise _ _

/-! ## The pause -/

/-- What the pause does not change. -/
structure Same (s t : State) : Prop where
  seq : t.seq = s.seq
  sent : t.sent = s.sent

theorem wait_same {e : Env} {endTime : Nat} {t : State} : ∀ (fuel : Nat) (s : State), wait e endTime fuel s = some t → Same s t := by
  intro fuel
  induction fuel with
  | zero => intro s h; cases h
  | succ fuel ih =>
    intro s h
    unfold wait at h
    split at h
    · exact ⟨(ih _ h).seq, (ih _ h).sent⟩
    · obtain rfl := Option.some.inj h
      exact ⟨rfl, rfl⟩

/-- The pause does not end before the counter has got to its end. -/
theorem wait_until {e : Env} {endTime q : Nat} {t : State} : ∀ (fuel : Nat) (s : State), s.time ≥ q * 4294967296 →
    wait e endTime fuel s = some t → t.time ≥ q * 4294967296 + endTime ∧ t.time ≥ s.time := by
  intro fuel
  induction fuel with
  | zero => intro s _ h; cases h
  | succ fuel ih =>
    intro s hq h
    unfold wait at h
    split at h
    · have := ih _ (show s.time + e.yield s.yields ≥ _ by omega) h
      dsimp only at this
      omega
    · obtain rfl := Option.some.inj h
      omega

/-- If no call of `yield()` lasts longer than `d`, the pause ends in time. -/
theorem wait_by {e : Env} {endTime d q : Nat} (hd : ∀ n, e.yield n ≤ d) (hw : endTime + d ≤ 4294967296) {t : State} : ∀ (fuel : Nat) (s : State),
    s.time ≥ q * 4294967296 → s.time < q * 4294967296 + endTime → wait e endTime fuel s = some t → t.time < q * 4294967296 + endTime + d := by
  intro fuel
  induction fuel with
  | zero => intro s _ _ h; cases h
  | succ fuel ih =>
    intro s hq hs h
    unfold wait at h
    rw [if_pos (by omega)] at h
    have hy := hd s.yields
    by_cases hl : s.time + e.yield s.yields < q * 4294967296 + endTime
    · exact ih _ (show s.time + e.yield s.yields ≥ _ by omega) hl h
    · cases fuel with
      | zero => cases h
      | succ fuel =>
        unfold wait at h
        dsimp only at h
        rw [if_neg (by omega)] at h
        obtain rfl := Option.some.inj h
        show s.time + e.yield s.yields < _
        omega

/-- And it does end, if each call takes some time. -/
theorem wait_ends {e : Env} {endTime d q : Nat} (hd : ∀ n, e.yield n ≤ d) (h1 : ∀ n, 1 ≤ e.yield n) (hw : endTime + d ≤ 4294967296) :
    ∀ (k : Nat) (s : State), s.time ≥ q * 4294967296 → s.time < q * 4294967296 + endTime + d → q * 4294967296 + endTime - s.time ≤ k →
    ∀ fuel > k, ∃ t, wait e endTime fuel s = some t := by
  intro k
  induction k with
  | zero =>
    intro s hq hs hk fuel hf
    obtain ⟨fuel, rfl⟩ : ∃ f, fuel = f + 1 := ⟨fuel - 1, by omega⟩
    unfold wait
    have := hd 0
    have := h1 0
    rw [if_neg (by omega)]
    exact ⟨_, rfl⟩
  | succ k ih =>
    intro s hq hs hk fuel hf
    obtain ⟨fuel, rfl⟩ : ∃ f, fuel = f + 1 := ⟨fuel - 1, by omega⟩
    unfold wait
    split
    · have := hd s.yields
      have := h1 s.yields
      refine ih _ (show s.time + e.yield s.yields ≥ _ by omega) (show s.time + e.yield s.yields < _ by omega) (show _ - (s.time + e.yield s.yields) ≤ _ by omega)
        fuel (by omega)
    · exact ⟨_, rfl⟩

/-- With an end before the current tick there is no pause. -/
theorem wait_none {e : Env} {endTime fuel : Nat} {s t : State} (h : endTime ≤ s.time % 4294967296) (hw : wait e endTime fuel s = some t) :
    t = s := by
  cases fuel with
  | zero => cases hw
  | succ fuel =>
    unfold wait at hw
    rw [if_neg (by omega)] at hw
    exact (Option.some.inj hw).symm

/-! ## A turn of the loop -/

theorem round_split {e : Env} {fuel : Nat} {s t : State} (h : round e fuel s = some t) :
    ∃ u, wait e (((publish e s).time % 4294967296 + 4000) % 4294967296) fuel (publish e s) = some u ∧
      t = { u with seq := (s.seq + 1) % 4294967296 } ∧ u.sent = (publish e s).sent := by
  unfold round at h
  dsimp only at h
  split at h
  · cases h
  · rename_i u hu
    obtain rfl := Option.some.inj h
    have := wait_same _ _ hu
    refine ⟨u, hu, ?_, this.sent⟩
    rw [this.seq]
    rfl

theorem pause_gap {e : Env} {fuel : Nat} {s u : State} {x : Packet} (hx : x.done = s.time)
    (h : wait e ((s.time % 4294967296 + 4000) % 4294967296) fuel s = some u) : Gap x u.time := by
  unfold Gap Calm
  rw [hx]
  refine ⟨fun hc => ?_, fun hc => ?_⟩
  · have := (wait_until (q := s.time / 4294967296) _ _ (by omega) h).1
    omega
  · rw [wait_none (by omega) h]

/-- After any number of turns. -/
structure Going (n : Nat) (s : State) : Prop where
  seq : s.seq = n % 4294967296
  data : s.sent.map (·.data) = (List.range n).map fun i => payload (i % 4294967296)
  spaced : Spaced s.sent
  last : ∀ pre x, s.sent = pre ++ [x] → Gap x s.time
  order : ∀ x ∈ s.sent, x.start ≤ x.done

theorem Going.next {e : Env} {fuel n : Nat} {s t : State} (h : Going n s) (hr : round e fuel s = some t) : Going (n + 1) t := by
  obtain ⟨u, hu, rfl, hs⟩ := round_split hr
  have hg := pause_gap (x := ⟨s.time, s.time + e.publish s.sent.length, payload s.seq⟩) rfl hu
  refine ⟨?_, ?_, ?_, ?_, ?_⟩
  · show (s.seq + 1) % _ = _
    rw [h.seq]
    omega
  · show u.sent.map _ = _
    rw [hs]
    show (s.sent ++ [_]).map _ = _
    rw [List.map_append, h.data, List.range_succ, List.map_append, h.seq]
    rfl
  · show Spaced u.sent
    rw [hs]
    intro pre x y post e1
    rcases List.eq_nil_or_concat post with rfl | ⟨q, z, rfl⟩
    · have e2 : s.sent ++ [(⟨s.time, s.time + e.publish s.sent.length, payload s.seq⟩ : Packet)] = (pre ++ [x]) ++ [y] := by
        rw [List.append_assoc]; exact e1
      obtain ⟨e3, e4⟩ := List.append_inj' e2 rfl
      rw [← (List.cons.inj e4).1]
      exact h.last pre x e3
    · have e2 : s.sent ++ [(⟨s.time, s.time + e.publish s.sent.length, payload s.seq⟩ : Packet)] = (pre ++ x :: y :: q) ++ [z] := by
        rw [List.concat_eq_append] at e1
        rw [List.append_assoc]; exact e1
      exact h.spaced pre x y q (List.append_inj' e2 rfl).1
  · intro pre x e1
    have e2 : s.sent ++ [(⟨s.time, s.time + e.publish s.sent.length, payload s.seq⟩ : Packet)] = pre ++ [x] := hs.symm.trans e1
    rw [← (List.cons.inj (List.append_inj' e2 rfl).2).1]
    exact hg
  · intro x hx
    have hx : x ∈ u.sent := hx
    rw [hs] at hx
    rcases List.mem_append.1 hx with hx | hx
    · exact h.order x hx
    · obtain rfl := List.mem_singleton.1 hx
      exact Nat.le_add_right _ _

theorem Going.all {e : Env} {fuel : Nat} (t0 : Nat) : ∀ (n : Nat) (s : State), rounds e fuel n (start t0) = some s → Going n s := by
  intro n
  induction n with
  | zero =>
    intro s h
    obtain rfl := Option.some.inj h
    refine ⟨rfl, rfl, ?_, ?_, ?_⟩
    · intro pre x y post e1
      exact absurd (congrArg List.length e1) (by simp [start])
    · intro pre x e1
      exact absurd (congrArg List.length e1) (by simp [start])
    · intro x hx
      cases hx
  | succ n ih =>
    intro s h
    unfold rounds at h
    split at h
    · cases h
    · rename_i u hu
      exact (ih u hu).next h

end Verif.Sequence
