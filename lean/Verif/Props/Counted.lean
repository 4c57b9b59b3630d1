import Verif.Lemmas.Plays
import Verif.Lemmas.Counted

/-!
# Property C92: the tasks with a counted loop
-/

namespace Verif.Props.Counted

open Verif.Counted Spec.Counted
open Verif.Client (Call driver plays plays_turns)
open Spec.Threads
open Spec.Client (oneByOne roomy sent7x00)
open Sess (talk)

variable {D : Type}

/-- The drivers do as `Reads` demands, whatever their `run()` does. -/
theorem C92_drivers {S R X : Type} (step : Dev S R X → Op → Dev S R X) (conf : List Op) : Reads (driver step conf) :=
  fun x n => Ring.length_pullN n x.2.rbuf

/-- C92: whatever the driver answers and whatever happens between the calls, the task makes its calls in order, sends the request while
connected, reads pieces of 1 to 40 bytes without leaving `buf`, prints them in order, and calls `disconnect()` after exactly 400 rounds, each of
which read a piece or was a pause. -/
theorem C92_order (k : Kind) {api : Verif.Client.Api D} (hr : Reads api) {t : Task} (ht : t.timeoutRunning = false) {xs : List (Nat × (World D → World D))}
    {d : D} (hx : ∀ x ∈ xs, ∀ w, Others w (x.2 w)) {s : Duff.St (World D)} (hc : Duff.Calls (text k api) xs (Duff.init 0 t (start d)) s) :
    ∃ (ps : List (List Byte)) (st : Stage), Talk k ps s.user st ∧ (∀ bs ∈ ps, bs ≠ [] ∧ bs.length ≤ 40) ∧
      s.user.base.shown = ps.flatMap k.print ∧ s.user.base.oob = false := by
  obtain ⟨ps, st, h1, h2⟩ := rests hr ht hx hc
  exact ⟨ps, st, h1, h2.pieces, h2.shown, h2.oob⟩

/-- What was read according to the calls. -/
def taken : List Call → List Byte
  | [] => []
  | .read bs :: l => bs ++ taken l
  | _ :: l => taken l

theorem taken_append (a b : List Call) : taken (a ++ b) = taken a ++ taken b := by
  induction a with
  | nil => rfl
  | cons c a ih => cases c <;> simp [taken, ih]

theorem taken_read (ps : List (List Byte)) : taken (ps.map Call.read) = ps.flatten := by
  induction ps with
  | nil => rfl
  | cons p ps ih => simp [taken, ih]

theorem taken_opening (k : Kind) {l : List Call} (h : l <+: opening k) : taken l = [] := by
  obtain ⟨r, hr⟩ := h
  have : taken (opening k) = [] := by cases hd : k.detect <;> simp [opening, hd, taken]
  rw [← hr, taken_append] at this
  exact (List.append_eq_nil_iff.1 this).1

/-- Of an answer of any length the task reads 16000 bytes at most. -/
theorem C92_limit (k : Kind) {api : Verif.Client.Api D} (hr : Reads api) {t : Task} (ht : t.timeoutRunning = false) {xs : List (Nat × (World D → World D))}
    {d : D} (hx : ∀ x ∈ xs, ∀ w, Others w (x.2 w)) {s : Duff.St (World D)} (hc : Duff.Calls (text k api) xs (Duff.init 0 t (start d)) s) :
    (taken s.user.base.log).length ≤ 16000 := by
  obtain ⟨ps, st, h1, h2, -, -⟩ := C92_order k hr ht hx hc
  have hl : ∀ qs : List (List Byte), (∀ bs ∈ qs, bs ≠ [] ∧ bs.length ≤ 40) → qs.flatten.length ≤ 40 * qs.length := by
    intro qs
    induction qs with
    | nil => simp
    | cons q qs ih =>
      intro hq
      have a := ih fun bs hb => hq bs (List.mem_cons_of_mem _ hb)
      have b := (hq q (List.mem_cons_self ..)).2
      simp only [List.length_cons, List.flatten_cons, List.length_append]
      omega
  have hp := hl ps h2
  cases st with
  | opening => rw [taken_opening k h1.2.2]; simp
  | reading =>
    rw [h1.2, taken_append, taken_opening k (List.prefix_refl _), taken_read, List.nil_append]
    have := h1.1
    omega
  | ending =>
    obtain ⟨hn, c, n, e, he, hlog⟩ := h1
    have e0 : taken (.disconnect c n :: e) = [] := by
      rcases List.prefix_cons_iff.1 he with rfl | ⟨l, rfl, hl'⟩
      · rfl
      · rw [List.prefix_nil.1 hl']; rfl
    rw [hlog, taken_append, taken_append, taken_opening k (List.prefix_refl _), taken_read, e0, List.nil_append, List.append_nil]
    omega

/-- Once something was read, 400 further calls of `run()` lead to `disconnect()`, whatever the driver and the server do. -/
theorem C92_bounded (k : Kind) (api : Verif.Client.Api D) {t : Task} {xs ys : List (Nat × (World D → World D))} {d : D}
    (hx : ∀ x ∈ xs, ∀ w, Others w (x.2 w)) (hy : ∀ x ∈ ys, ∀ w, Others w (x.2 w)) {s s' : Duff.St (World D)}
    (hc : Duff.Calls (text k api) xs (Duff.init 0 t (start d)) s) (hc' : Duff.Calls (text k api) ys s s')
    (hread : ∃ bs, Call.read bs ∈ s.user.base.log) (hl : 400 ≤ ys.length) : ∃ c n, Call.disconnect c n ∈ s'.user.base.log := by
  have h0 : Phase k 0 (Duff.init 0 t (start d)) := .inl ⟨Nat.zero_le _, fun ⟨bs, h⟩ => (by cases h)⟩
  rcases calls_phase h0 hx hc with ⟨_, h⟩ | h
  · exact absurd hread h
  · rcases calls_beyond h hy hc' with ⟨_, _, h1, h2⟩ | ⟨_, h⟩
    · omega
    · exact h

/-- Between the first piece and `disconnect()` the task asks to be called after 10 or 20 ms. -/
theorem C92_pace (k : Kind) (api : Verif.Client.Api D) {t : Task} {xs : List (Nat × (World D → World D))} {d : D}
    (hx : ∀ x ∈ xs, ∀ w, Others w (x.2 w)) {s : Duff.St (World D)} (hc : Duff.Calls (text k api) xs (Duff.init 0 t (start d)) s)
    (hread : ∃ bs, Call.read bs ∈ s.user.base.log) (hd : ¬ ∃ c n, Call.disconnect c n ∈ s.user.base.log) : s.task.delay = k.wait % 65536 := by
  have h0 : Phase k 0 (Duff.init 0 t (start d)) := .inl ⟨Nat.zero_le _, fun ⟨bs, h⟩ => (by cases h)⟩
  rcases calls_phase h0 hx hc with ⟨_, h⟩ | ⟨_, h, _⟩ | ⟨_, h⟩
  · exact absurd hread h
  · exact h
  · exact absurd h hd

theorem C92_kinds : mbed.wait % 65536 = 10 ∧ stm32.wait % 65536 = 20 := by decide

/-- What is printed: mbed up to the first zero of each piece; the STM32 everything, with `\r` before each `\n`. -/
theorem C92_prints (bs : List Byte) :
    (mbed.print bs <+: bs ∧ 0 ∉ mbed.print bs ∧ (0 ∉ bs → mbed.print bs = bs)) ∧
    ((stm32.print bs).length = bs.length + bs.count 10 ∧ (13 ∉ bs → (stm32.print bs).filter (· != 13) = bs)) := by
  refine ⟨⟨List.takeWhile_prefix _, ?_⟩, ?_⟩
  · induction bs with
    | nil => exact ⟨fun h => (by cases h), fun _ => rfl⟩
    | cons c bs ih =>
      have e : mbed.print (c :: bs) = if c = 0 then [] else c :: mbed.print bs := by
        by_cases hc : c = 0 <;> simp [mbed, List.takeWhile_cons, hc]
      rw [e]
      by_cases hc : c = 0
      · rw [if_pos hc]
        exact ⟨fun h => (by cases h), fun h => absurd (by rw [hc]; exact List.mem_cons_self ..) h⟩
      · rw [if_neg hc]
        refine ⟨fun h => ?_, fun h => by rw [ih.2 fun h' => h (List.mem_cons_of_mem _ h')]⟩
        rcases List.mem_cons.1 h with h | h
        · exact hc h.symm
        · exact ih.1 h
  · induction bs with
    | nil => exact ⟨rfl, fun _ => rfl⟩
    | cons c bs ih =>
      have e : stm32.print (c :: bs) = (if c = 10 then [13, 10] else [c]) ++ stm32.print bs := rfl
      rw [e]
      by_cases hc : c = 10
      · subst hc
        refine ⟨by simp [ih.1]; omega, fun h => ?_⟩
        rw [if_pos rfl, List.filter_append, ih.2 fun h' => h (List.mem_cons_of_mem _ h')]
        rfl
      · refine ⟨by simp [hc, ih.1]; omega, fun h => ?_⟩
        rw [if_neg hc, List.filter_append, ih.2 fun h' => h (List.mem_cons_of_mem _ h')]
        have : c ≠ 13 := fun h' => h (by rw [h']; exact List.mem_cons_self ..)
        simp [this]

/-- Every call of the task's `run()` returns, in whatever state. -/
theorem C92_returns (k : Kind) (api : Verif.Client.Api D) (t : Nat) (s : Duff.St (World D)) : ∃ s', Duff.Call (text k api) t s s' :=
  (text_finitely k api).call t s

/-! ### What the count is for cannot be known -/

/-- The same between the turns as in the first example. -/
def other {E : Type} (x : Nat × (Client.World E → Client.World E)) : Nat × (World E → World E) := (x.1, fun w => { w with base := x.2 w.base })

/-- A SIM7x00 has delivered the first three bytes of the answer. -/
def first7x00 : List Op := talk b!"+CIPRXGET: 1,0\r\n" ++ talk b!"+CIPRXGET: 4,0,3\r\n" ++ talk b!"OK\r\n" ++
  talk b!"+CIPRXGET: 2,0,3,0\r\n" ++ talk b!"abc" ++ talk b!"OK\r\n"

/-- The turns: the server sends three bytes, and nothing for a while. -/
def slow : List (Nat × (World (Bool × Sim7x00.D) → World (Bool × Sim7x00.D))) :=
  (oneByOne (Sim7x00.step Sess.arm) (sent7x00 ++ first7x00)).map other ++ List.replicate 400 (0, id)

set_option maxHeartbeats 1000000 in
theorem slow_plays : (plays 60 slow (Thread.fresh (body mbed (driver (Sim7x00.step Sess.arm) conf)) 0 (start (true, roomy Sess.sim7x00)))).map
    (fun th => (th.user.base.log, th.user.base.shown)) = some (opening mbed ++ [.read b!"abc", .disconnect true 0], b!"abc") := by decide +kernel

/-- "The whole answer is printed" is false: after 399 pauses the task disconnects although the connection is up. -/
theorem C92_impatient : ∃ st, Duff.Calls (text mbed (driver (Sim7x00.step Sess.arm) conf)) slow
    (Duff.init 0 (Task.init 0 0) (start (true, roomy Sess.sim7x00))) st ∧
    st.user.base.log = opening mbed ++ [.read b!"abc", .disconnect true 0] ∧ st.user.base.shown = b!"abc" := by
  obtain ⟨th, h1, h2⟩ := Option.map_eq_some_iff.mp slow_plays
  obtain ⟨st, hc, hu⟩ := plays_turns' (plays_turns h1)
  rw [Prod.mk.injEq] at h2
  exact ⟨st, hc, by rw [hu]; exact h2.1, by rw [hu]; exact h2.2⟩

/-- A modem that has always more to deliver than is asked for. -/
def tap : Verif.Client.Api Unit where
  startDetection := id
  modemDetected _ := true
  getDetectedModem := id
  configure := id
  setHostPort := id
  connect := id
  isConnected _ := true
  write d _ := d
  bytesAvailable _ := 100
  read d n := (d, List.replicate (min n 100) 120)
  disconnect := id
  isIdle _ := true

example : Reads tap := fun _ n => by show (List.replicate (min n 100) _).length = min n 100; rw [List.length_replicate]

/-- A piece of its answer. -/
def piece : List Byte := List.replicate 40 120

theorem tap_rounds (k : Kind) {s : Duff.St (World Unit)} (hi : s.user.i ≤ 400) :
    Into (fun s' => s'.user.base.log = s.user.base.log ++ List.replicate (400 - s.user.i) (.read piece) ++ [.disconnect true 100, .done])
      (.run (Duff.Prog.expand (rounds k tap)) :: after tap) s := by
  generalize hm : 400 - s.user.i = m
  induction m generalizing s with
  | zero =>
    refine .loop (fun h => ?_) fun _ => ?_
    · have : s.user.i < 400 := by simpa using h
      omega
    · refine .back rfl (.back rfl (.back rfl (.back rfl (.back rfl (.back rfl (.back rfl (.back rfl (.back rfl ?_))))))))
      refine .ite (fun h => (by cases h)) fun _ => .back rfl (.back rfl (.back rfl (.nil ?_)))
      show (s.user.base.log ++ [_]) ++ [_] = _
      simp [tap]
  | succ m ih =>
    refine .loop (fun h => ?_) fun h => ?_
    · refine .ite (fun _ => .back rfl (.back rfl ?_)) fun h => (by cases h)
      have q := ih (s := { s with user := { readSome k tap s.user with i := s.user.i + 1 } }) (by show s.user.i + 1 ≤ 400; omega)
        (by show 400 - (s.user.i + 1) = m; omega)
      obtain ⟨n, x, h1, h2⟩ := q
      refine ⟨n, x, h1, ?_⟩
      refine h2.trans ?_
      rw [List.replicate_succ]
      show ((s.user.base.log ++ [.read piece]) ++ _) ++ _ = _
      simp
    · have : ¬ s.user.i < 400 := by simpa using h
      omega

/-- Nor is it if the answer is long: 16000 bytes are printed, and 100 that are there are not. -/
theorem C92_long : ∃ st, Duff.Calls (text mbed tap) [(0, id)] (Duff.init 0 (Task.init 0 0) (start ())) st ∧
    st.user.base.log = opening mbed ++ List.replicate 400 (.read piece) ++ [.disconnect true 100, .done] := by
  have q : Into (fun s' => s'.user.base.log = opening mbed ++ List.replicate 400 (.read piece) ++ [.disconnect true 100, .done])
      ((Duff.find 0 (text mbed tap) []).getD []) ⟨(Task.init 0 0).setLastRun 0, 0, start ()⟩ := by
    refine .back rfl (.back rfl (.back rfl ?_))
    refine .back rfl (.back rfl (.back rfl (.back rfl (.back rfl (.back rfl (.back rfl (.back rfl (.back rfl (.back rfl (.back rfl
      (.back rfl (.back rfl ?_))))))))))))
    refine .ite (fun h => (by cases h)) fun _ => ?_
    refine .back rfl (.back rfl (.back rfl (.back rfl (.back rfl (.back rfl (.back rfl (.back rfl (.back rfl (.back rfl ?_)))))))))
    refine .ite (fun h => (by cases h)) fun _ => .back rfl (.back rfl (.back rfl (.back rfl ?_)))
    exact tap_rounds mbed (Nat.zero_le _)
  obtain ⟨n, s, h1, h2⟩ := q
  exact ⟨s, .cons ⟨n, h1⟩ .nil, h2⟩

/-- The hypotheses of `C92_order` and `C92_bounded` are met by `slow`. -/
example : ∀ x ∈ slow, ∀ w, Others w (x.2 w) := by
  intro x hx w
  rcases List.mem_append.1 hx with h | h
  · obtain ⟨y, hy, rfl⟩ := List.mem_map.1 h
    obtain ⟨op, _, rfl⟩ := List.mem_map.1 hy
    exact ⟨rfl, rfl, rfl, rfl, rfl⟩
  · rw [(List.mem_replicate.1 h).2]
    exact ⟨rfl, rfl, rfl, rfl, rfl⟩

/-- A modem that is connected, with a server that does not answer. -/
def mute : Verif.Client.Api Unit := { tap with bytesAvailable := fun _ => 0, read := fun d _ => (d, []) }

example : Reads mute := fun _ n => (Nat.min_zero n).symm

/-- "The task comes to its end" is false without an answer: it waits for the first byte, for ever. -/
theorem C92_mute {t : Task} {xs : List (Nat × (World Unit → World Unit))} (hx : ∀ x ∈ xs, ∀ w, Others w (x.2 w)) {s : Duff.St (World Unit)}
    (hc : Duff.Calls (text mbed mute) xs (Duff.init 0 t (start ())) s) : s.user.base.log <+: opening mbed := by
  have key : ∀ {xs} {s s' : Duff.St (World Unit)}, (s.entry = 0 ∧ s.user.base.log = [] ∨ s.entry = 3 ∧ s.user.base.log = opening mbed) →
      (∀ x ∈ xs, ∀ w, Others w (x.2 w)) → Duff.Calls (text mbed mute) xs s s' →
      (s'.entry = 0 ∧ s'.user.base.log = [] ∨ s'.entry = 3 ∧ s'.user.base.log = opening mbed) := by
    intro xs s s' h hx hc
    induction hc with
    | nil => exact h
    | @cons t g xs s s1 s2 c _ ih =>
      have r := (hx _ (List.mem_cons_self ..) s.user).2.2.1
      refine ih (.inr ?_) fun x hx' => hx x (List.mem_cons_of_mem _ hx')
      obtain ⟨task, entry, user⟩ := s
      refine Into.call (Q := fun s1 => s1.entry = 3 ∧ s1.user.base.log = opening mbed) ?_ c
      rcases h with ⟨h, hl⟩ | ⟨h, hl⟩
      · simp only at h hl r; subst h
        refine .back rfl (.back rfl (.back rfl ?_))
        refine .back rfl (.back rfl (.back rfl (.back rfl (.back rfl (.back rfl (.back rfl (.back rfl (.back rfl (.back rfl (.back rfl
          (.back rfl (.back rfl ?_))))))))))))
        refine .ite (fun h => (by cases h)) fun _ => ?_
        refine .back rfl (.back rfl (.back rfl (.back rfl (.back rfl (.back rfl (.back rfl (.back rfl (.back rfl (.back rfl ?_)))))))))
        refine .ite (fun _ => .back rfl (.nil ⟨rfl, ?_⟩)) fun h => (by cases h)
        show ((((g user).base.log ++ [_]) ++ [_]) ++ [_]) ++ [_] = _
        rw [r, hl]; rfl
      · simp only at h hl r; subst h
        refine .ite (fun _ => .back rfl (.nil ⟨rfl, r.trans hl⟩)) fun h => (by cases h)
  rcases key (.inl ⟨rfl, rfl⟩) hx hc with ⟨_, h⟩ | ⟨_, h⟩ <;> rw [h]
  · exact List.nil_prefix
  · exact List.prefix_refl _

end Verif.Props.Counted
