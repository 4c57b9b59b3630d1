import Verif.Lemmas.Rely
import Verif.Lemmas.Returns
import Verif.Props.Thread
import Verif.Spec.Counted

/-!
# The tasks with a counted loop as threads
-/

namespace Verif.Counted

open Duff (Test Wait Prog)
open Spec.Threads Spec.Counted
open Verif.Client (Api Call)

variable {D : Type}

theorem body_good (k : Kind) (api : Api D) : Good 0 6 (body k api) := by
  cases h : k.detect <;>
    exact ⟨by simp [body, detection, session, rounds, round, labels, h], by simp [body, detection, session, rounds, round, labels, h],
      by simp [body, detection, session, rounds, round, Closed, h]⟩

/-- What holds besides the calls. -/
structure Fine (k : Kind) (ps : List (List Byte)) (w : World D) : Prop where
  shown : w.base.shown = ps.flatMap k.print
  oob : w.base.oob = false
  pieces : ∀ bs ∈ ps, bs ≠ [] ∧ bs.length ≤ 40

def Rests (k : Kind) (w : World D) : Prop := ∃ ps st, Talk k ps w st ∧ Fine k ps w

/-- The calls are `l`, nothing was read. -/
def At (k : Kind) (l : List Call) (w : World D) : Prop := w.base.log = l ∧ w.pauses = 0 ∧ Fine k [] w

/-- The task in its loop, having completed `i + a` rounds. -/
def Inner (k : Kind) (a : Nat) (w : World D) : Prop :=
  ∃ ps, Fine k ps w ∧ ps.length + w.pauses = w.i + a ∧ w.i + a ≤ 400 ∧ w.base.log = opening k ++ ps.map Call.read

def Late (k : Kind) (e : List Call) (w : World D) : Prop :=
  ∃ ps, Fine k ps w ∧ ps.length + w.pauses = 400 ∧ ∃ c n, w.base.log = opening k ++ ps.map Call.read ++ .disconnect c n :: e

variable {k : Kind} {api : Api D}

theorem Fine.others {ps : List (List Byte)} {u v : World D} (h : Fine k ps u) (r : Others u v) : Fine k ps v :=
  ⟨r.2.2.2.1.trans h.shown, r.2.2.2.2.trans h.oob, h.pieces⟩

theorem At.others {l : List Call} {u v : World D} (h : At k l u) (r : Others u v) : At k l v :=
  ⟨r.2.2.1.trans h.1, r.2.1.trans h.2.1, h.2.2.others r⟩

theorem Inner.others {a : Nat} {u v : World D} (h : Inner k a u) (r : Others u v) : Inner k a v := by
  obtain ⟨ps, h1, h2, h3, h4⟩ := h
  exact ⟨ps, h1.others r, by rw [r.2.1, r.1]; exact h2, by rw [r.1]; exact h3, r.2.2.1.trans h4⟩

theorem Late.others {e : List Call} {u v : World D} (h : Late k e u) (r : Others u v) : Late k e v := by
  obtain ⟨ps, h1, h2, c, n, h3⟩ := h
  exact ⟨ps, h1.others r, by rw [r.2.1]; exact h2, c, n, r.2.2.1.trans h3⟩

theorem At.rests {l : List Call} (hl : l <+: opening k) {w : World D} (h : At k l w) : Rests k w :=
  ⟨[], .opening, ⟨rfl, h.2.1, by rw [h.1]; exact hl⟩, h.2.2⟩

theorem Inner.rests {a : Nat} {w : World D} (h : Inner k a w) : Rests k w := by
  obtain ⟨ps, h1, h2, h3, h4⟩ := h
  exact ⟨ps, .reading, ⟨by omega, h4⟩, h1⟩

theorem Late.rests {e : List Call} (he : e <+: [.done]) {w : World D} (h : Late k e w) : Rests k w := by
  obtain ⟨ps, h1, h2, c, n, h3⟩ := h
  exact ⟨ps, .ending, ⟨h2, c, n, e, he, h3⟩, h1⟩

theorem At.call {l : List Call} {c : Call} {f : D → D} {w : World D} (h : At k l w) : At k (l ++ [c]) (call c f w) :=
  ⟨by simp [Counted.call, Client.call, h.1], h.2.1, ⟨h.2.2.shown, h.2.2.oob, h.2.2.pieces⟩⟩

theorem Inner.readSome (hr : Reads api) {w : World D} (h : Inner k 0 w) (hi : w.i < 400) (ha : api.bytesAvailable w.base.dev ≠ 0) :
    Inner k 1 (readSome k api w) := by
  obtain ⟨ps, h1, h2, h3, h4⟩ := h
  have hl := hr w.base.dev 40
  refine ⟨ps ++ [(api.read w.base.dev 40).2], ⟨by simp [Counted.readSome, h1.shown], ?_, ?_⟩, ?_, hi, by simp [Counted.readSome, h4]⟩
  · simp only [Counted.readSome, h1.oob, Bool.false_or, decide_eq_false_iff_not]; omega
  · intro bs hb
    rcases List.mem_append.1 hb with hb | hb
    · exact h1.pieces bs hb
    · rw [List.mem_singleton] at hb
      subst hb
      refine ⟨fun e => ?_, by omega⟩
      rw [e] at hl
      simp only [List.length_nil] at hl
      omega
  · simp only [Counted.readSome, List.length_append, List.length_singleton]; omega

theorem rounds_tri (hr : Reads api) : Tri (Rests k) Others (fun w : World D => Inner k 0 w) (rounds k api) (fun w => Inner k 0 w ∧ w.i = 400) := by
  refine .loop (A := fun w => Inner k 0 w ∧ w.i < 400) (B := Inner k 1) (fun w h hc => ⟨h, by simpa using hc⟩) (fun w h hc => ⟨h, ?_⟩) ?_ ?_
  · have : ¬ w.i < 400 := by simpa using hc
    obtain ⟨ps, h1, h2, h3, h4⟩ := h
    show w.i = 400
    omega
  · refine .ite (A := fun w => (Inner k 0 w ∧ w.i < 400) ∧ api.bytesAvailable w.base.dev ≠ 0) (B := fun w => Inner k 0 w ∧ w.i < 400)
      (fun w h hc => ⟨h, by simpa [ask] using hc⟩) (fun w h _ => h) (.act fun w h => h.1.1.readSome hr h.1.2 h.2) ?_
    refine .seq (Q := Inner k 1) (.act ?_) (.any (W := Inner k 1) (fun _ h => h.rests) (fun _ h => h) (fun _ _ _ h => h) (fun _ _ _ h _ => h)
      fun _ _ h r => h.others r)
    rintro w ⟨⟨ps, h1, h2, h3, h4⟩, hi⟩
    exact ⟨ps, ⟨h1.shown, h1.oob, h1.pieces⟩, (by show ps.length + (w.pauses + 1) = w.i + 1; omega), hi, h4⟩
  · rintro w ⟨ps, h1, h2, h3, h4⟩
    exact ⟨ps, ⟨h1.shown, h1.oob, h1.pieces⟩, h2, h3, h4⟩

/-- The calls of the detection. -/
def found (k : Kind) : List Call := if k.detect then [.startDetection, .getDetectedModem] else []

theorem found_prefix {l : List Call} (h : l <+: [.configure, .setHostPort, .connect, .write true]) : found k ++ l <+: opening k :=
  (List.prefix_append_right_inj _).2 h

theorem session_tri (hr : Reads api) : Tri (Rests k) Others (At (D := D) k (found k)) (session k api) (Late k [.done]) := by
  refine .seq (Q := At k (found k ++ [.configure])) (.act fun w h => h.call) ?_
  refine .seq (Q := At k (found k ++ [.configure] ++ [.setHostPort])) (.act fun w h => h.call) ?_
  refine .seq (Q := At k (found k ++ [.configure] ++ [.setHostPort] ++ [.connect])) (.act fun w h => h.call) ?_
  refine .seq (Q := fun w => At k (found k ++ [.configure] ++ [.setHostPort] ++ [.connect]) w ∧ api.isConnected w.base.dev = true)
    (.cond (W := At k (found k ++ [.configure] ++ [.setHostPort] ++ [.connect])) (fun _ h => h.rests ?_) (fun _ h _ => h)
      (fun _ h hc => ⟨h, hc⟩) fun _ _ h r => h.others r) ?_
  · simp only [List.append_assoc]
    exact found_prefix ⟨[.write true], rfl⟩
  refine .seq (Q := At k (opening k)) (.act fun w h => ?_) ?_
  · rw [h.2]
    have e : opening k = found k ++ [.configure] ++ [.setHostPort] ++ [.connect] ++ [.write true] := by simp [opening, found]
    rw [e]
    exact h.1.call
  refine .seq (Q := At k (opening k)) (.cond (W := At k (opening k)) (fun _ h => h.rests (List.prefix_refl _)) (fun _ h _ => h)
      (fun _ h _ => h) fun _ _ h r => h.others r) ?_
  refine .seq (Q := Inner k 0) (.act fun w h => ?_) ?_
  · exact ⟨[], ⟨h.2.2.shown, h.2.2.oob, h.2.2.pieces⟩, by simpa using h.2.1, Nat.zero_le _, by simpa using h.1⟩
  refine .seq (rounds_tri hr) ?_
  refine .seq (Q := Late k []) (.act ?_) ?_
  · rintro w ⟨⟨ps, h1, h2, h3, h4⟩, hi⟩
    exact ⟨ps, ⟨h1.shown, h1.oob, h1.pieces⟩, by show ps.length + w.pauses = 400; omega, _, _, by simp [call, Client.call, h4]; exact ⟨rfl, rfl⟩⟩
  refine .seq (Q := Late k []) (.cond (W := Late k []) (fun _ h => h.rests ⟨[.done], rfl⟩) (fun _ h _ => h) (fun _ h _ => h)
    fun _ _ h r => h.others r) (.act ?_)
  rintro w ⟨ps, h1, h2, c, n, h3⟩
  exact ⟨ps, ⟨h1.shown, h1.oob, h1.pieces⟩, h2, c, n, by simp [call, Client.call, h3]⟩

theorem body_tri (hr : Reads api) : Tri (Rests k) Others (At (D := D) k []) (body k api) (Late k [.done]) := by
  refine .seq (Q := At k (found k)) ?_ (session_tri hr)
  cases h : k.detect with
  | false =>
    simp only [Bool.false_eq_true, if_false]
    exact .act fun w hw => by simpa [found, h] using hw
  | true =>
    simp only [if_true]
    refine .seq (Q := At k [.startDetection]) (.act fun w hw => hw.call) ?_
    refine .seq (Q := At k [.startDetection]) (.cond (W := At k [.startDetection]) (fun _ hw => hw.rests ?_) (fun _ h _ => h)
      (fun _ h _ => h) fun _ _ h r => h.others r) (.act fun w hw => ?_)
    · simp only [opening, h, if_true]; exact ⟨_, rfl⟩
    · simp only [found, h, if_true]; exact hw.call

theorem rests (hr : Reads api) {t : Task} (ht : t.timeoutRunning = false) {xs : List (Nat × (World D → World D))} {d : D}
    (hx : ∀ x ∈ xs, ∀ w, Others w (x.2 w)) {s : Duff.St (World D)} (hc : Duff.Calls (text k api) xs (Duff.init 0 t (start d)) s) :
    Rests k s.user := by
  obtain ⟨h, h1, h2, _⟩ := (Props.Thread.C83_thread (body_good k api) ht xs (start d) _ _).1 ⟨s, hc, rfl, rfl⟩
  rw [← h2]
  have h0 : At k [] (start d) := ⟨rfl, rfl, rfl, rfl, by simp⟩
  exact turns_sound (body_tri hr) (fun _ _ h r => h.others r) (fun _ h => h.rests (List.prefix_refl _)) h1 hx
    (h0.rests List.nil_prefix) fun v r => h0.others r

/-! ### Every call returns -/

theorem cond_finitely {σ : Type} (l : Nat) (c : Test σ) : Duff.Finitely (Wait.expand l (.cond c)) :=
  .seq (.setDelay _) (.seq (.setEntry l) (.seq (.label l) (.ite .ret (.act id))))

theorem delay_finitely {σ : Type} (l : Nat) (d : σ → Nat) : Duff.Finitely (Wait.expand l (.delay d)) :=
  .seq (.setDelay _) (.seq (.setEntry l) (.seq .ret (.label l)))

/-- A round that does not return counts. -/
theorem rounds_finite : Duff.Finite (Prog.expand (rounds k api)) := by
  intro fs hk s
  generalize hm : 400 - s.user.i = m
  induction m using Nat.strongRecOn generalizing s with
  | _ m ih =>
    by_cases hi : s.user.i < 400
    · refine .loop (fun _ => ?_) fun _ => hk _
      refine .ite (fun _ => ?_) fun _ => ?_
      · refine .back rfl (.back rfl (ih (400 - (s.user.i + 1)) (by omega) _ rfl))
      · exact .back rfl (.back rfl (.back rfl (.back rfl (.back rfl (.back rfl (.back rfl (.back rfl (.nil _))))))))
    · refine .loop (fun h => ?_) fun _ => hk _
      exact absurd (by simpa using h) hi

theorem text_finitely (k : Kind) (api : Api D) : Duff.Finitely (text k api) := by
  refine .seq (.label 0) (.seq (.seq ?_ ?_) (.setEntry 6))
  · cases h : k.detect
    · exact .act _
    · exact .seq (.act _) (.seq (cond_finitely _ _) (.act _))
  · refine .seq (.act _) (.seq (.act _) (.seq (.act _) (.seq (cond_finitely _ _) (.seq (.act _) (.seq (cond_finitely _ _) (.seq (.act _)
      (.seq (.loop rounds_finite ?_) (.seq (.act _) (.seq (cond_finitely _ _) (.act _))))))))))
    exact .ite (.act _) (.seq (.act _) (delay_finitely _ _))

/-! ### How a call ends -/

/-- What is left to do comes to an end, and then `Q` holds. -/
def Into {σ : Type} (Q : Duff.St σ → Prop) (k : List (Duff.Frame σ)) (s : Duff.St σ) : Prop := ∃ n s', Duff.steps n (k, s) = ([], s') ∧ Q s'

section
variable {σ : Type} {Q : Duff.St σ → Prop} {fs : List (Duff.Frame σ)}

theorem Into.nil {s : Duff.St σ} (h : Q s) : Into Q [] s := ⟨0, s, rfl, h⟩

theorem Into.back {k' : List (Duff.Frame σ)} {s s' : Duff.St σ} (e : Duff.step (fs, s) = (k', s')) (h : Into Q k' s') : Into Q fs s := by
  obtain ⟨n, t, h, q⟩ := h
  exact ⟨n + 1, t, by show Duff.steps n (Duff.step (fs, s)) = _; rw [e]; exact h, q⟩

theorem Into.ite {c : Task → Test σ} {a b : Duff.Raw σ} {s : Duff.St σ}
    (h1 : (c s.task s.user).1 = true → Into Q (.run a :: fs) { s with user := (c s.task s.user).2 })
    (h2 : (c s.task s.user).1 = false → Into Q (.run b :: fs) { s with user := (c s.task s.user).2 }) :
    Into Q (.run (.ite c a b) :: fs) s := by
  refine .back (k' := .run (if (c s.task s.user).1 then a else b) :: fs) (s' := { s with user := (c s.task s.user).2 }) rfl ?_
  cases h : (c s.task s.user).1
  · exact h2 h
  · exact h1 h

theorem Into.loop {c : Test σ} {inc : σ → σ} {b : Duff.Raw σ} {s : Duff.St σ}
    (h1 : (c s.user).1 = true → Into Q (.run b :: .again c inc b :: fs) { s with user := (c s.user).2 })
    (h2 : (c s.user).1 = false → Into Q fs { s with user := (c s.user).2 }) : Into Q (.run (.loop c inc b) :: fs) s := by
  refine .back (k' := if (c s.user).1 then .run b :: .again c inc b :: fs else fs) (s' := { s with user := (c s.user).2 }) rfl ?_
  cases h : (c s.user).1
  · exact h2 h
  · exact h1 h

end

/-- The connection has been given up. -/
def GaveUp (w : World D) : Prop := ∃ c n, Call.disconnect c n ∈ w.base.log

/-- Something has been read. -/
def HasRead (w : World D) : Prop := ∃ bs, Call.read bs ∈ w.base.log

/-- Where the task rests; `n`: the rounds done. -/
def Phase (k : Kind) (n : Nat) (s : Duff.St (World D)) : Prop :=
  (s.entry ≤ 3 ∧ ¬ HasRead s.user) ∨ (s.entry = 4 ∧ s.task.delay = k.wait % 65536 ∧ n ≤ s.user.i ∧ s.user.i < 400) ∨
    ((s.entry = 5 ∨ s.entry = 6) ∧ GaveUp s.user)

/-- The same, without the beginning. -/
def Beyond (k : Kind) (n : Nat) (s : Duff.St (World D)) : Prop :=
  (s.entry = 4 ∧ s.task.delay = k.wait % 65536 ∧ n ≤ s.user.i ∧ s.user.i < 400) ∨ ((s.entry = 5 ∨ s.entry = 6) ∧ GaveUp s.user)

theorem Beyond.mono {n m : Nat} (h : m ≤ n) {s : Duff.St (World D)} (hb : Beyond k n s) : Beyond k m s := by
  rcases hb with ⟨h1, h2, h3, h4⟩ | hb
  · exact .inl ⟨h1, h2, by omega, h4⟩
  · exact .inr hb

theorem Beyond.phase {n : Nat} {s : Duff.St (World D)} (hb : Beyond k n s) : Phase k n s := .inr hb

theorem gaveUp_call {c : Call} {f : D → D} {w : World D} (h : GaveUp w) : GaveUp (call c f w) := by
  obtain ⟨a, b, h⟩ := h
  exact ⟨a, b, List.mem_append_left _ h⟩

/-- What follows the last `E_REENTER_COND`. -/
theorem idle_into {n : Nat} {s : Duff.St (World D)} (he : s.entry = 5) (h : GaveUp s.user) :
    Into (Beyond k n) [.run (.unless (ask api.isIdle)), .run (.act (call .done id)), .run (.setEntry 6)] s := by
  refine .ite (fun _ => .back rfl (.nil (.inr ⟨.inl he, h⟩))) fun _ => ?_
  exact .back rfl (.back rfl (.back rfl (.nil (.inr ⟨.inr rfl, gaveUp_call h⟩))))

/-- What follows the loop. -/
def after (api : Api D) : List (Duff.Frame (World D)) :=
  [.run (Prog.expand (.seq (.act fun w => call (.disconnect (api.isConnected w.base.dev) (api.bytesAvailable w.base.dev)) api.disconnect w)
    (.seq (.wait 5 (.cond (ask api.isIdle))) (.act (call .done id))))), .run (.setEntry 6)]

theorem rounds_into {n : Nat} {s : Duff.St (World D)} (hn : n ≤ s.user.i) :
    Into (Beyond k n) (.run (Prog.expand (rounds k api)) :: after api) s := by
  generalize hm : 400 - s.user.i = m
  induction m using Nat.strongRecOn generalizing s with
  | _ m ih =>
    refine .loop (fun h => ?_) fun _ => ?_
    · have hi : s.user.i < 400 := by simpa using h
      refine .ite (fun _ => ?_) fun _ => ?_
      · refine .back rfl (.back rfl (ih (400 - (s.user.i + 1)) (by omega) ?_ rfl))
        exact Nat.le_succ_of_le hn
      · exact .back rfl (.back rfl (.back rfl (.back rfl (.back rfl (.back rfl (.back rfl (.back rfl (.nil (.inl ⟨rfl, rfl, hn, hi⟩)))))))))
    · refine .back rfl (.back rfl (.back rfl (.back rfl (.back rfl (.back rfl (.back rfl (.back rfl (.back rfl ?_))))))))
      refine idle_into rfl ⟨_, _, List.mem_append_right _ (List.mem_singleton.2 rfl)⟩

theorem Into.call {Q : Duff.St (World D) → Prop} {t : Nat} {s s' : Duff.St (World D)}
    (h : Into Q ((Duff.find s.entry (text k api) []).getD []) { s with task := s.task.setLastRun t }) (hc : Duff.Call (text k api) t s s') :
    Q s' := by
  obtain ⟨n, x, h1, h2⟩ := h
  obtain ⟨m, h3⟩ := hc
  rw [Duff.steps_det h3 h1]
  exact h2

theorem Into.phase {n : Nat} {fs : List (Duff.Frame (World D))} {s : Duff.St (World D)} (h : Into (Beyond k n) fs s) : Into (Phase k n) fs s := by
  obtain ⟨m, x, h1, h2⟩ := h
  exact ⟨m, x, h1, h2.phase⟩

theorem hasRead_call {c : Call} (hc : ∀ bs, c ≠ .read bs) {f : D → D} {w : World D} (h : ¬ HasRead w) : ¬ HasRead (call c f w) := by
  rintro ⟨bs, hb⟩
  rcases List.mem_append.1 hb with hb | hb
  · exact h ⟨bs, hb⟩
  · exact hc bs (List.mem_singleton.1 hb).symm

/-- From the first data on. -/
theorem data_into {s : Duff.St (World D)} (he : s.entry ≤ 3) (h : ¬ HasRead s.user) :
    Into (Phase k 0) (.run (.unless (ask fun d => api.bytesAvailable d != 0)) ::
      .run (Prog.expand (.seq (.act fun w => { w with i := 0 }) (.seq (rounds k api)
        (.seq (.act fun w => call (.disconnect (api.isConnected w.base.dev) (api.bytesAvailable w.base.dev)) api.disconnect w)
        (.seq (.wait 5 (.cond (ask api.isIdle))) (.act (call .done id))))))) :: [.run (.setEntry 6)]) s := by
  refine .ite (fun _ => .back rfl (.nil (.inl ⟨he, h⟩))) fun _ => ?_
  exact .back rfl (.back rfl (.back rfl (.back rfl (rounds_into (Nat.zero_le _)).phase)))

/-- From the connection on. -/
theorem conn_into {s : Duff.St (World D)} (he : s.entry ≤ 3) (h : ¬ HasRead s.user) :
    Into (Phase k 0) (.run (.unless (ask api.isConnected)) ::
      .run (Prog.expand (.seq (.act fun w => call (.write (api.isConnected w.base.dev)) (api.write · Client.request) w)
        (.seq (.wait 3 (.cond (ask fun d => api.bytesAvailable d != 0)))
        (.seq (.act fun w => { w with i := 0 }) (.seq (rounds k api)
        (.seq (.act fun w => call (.disconnect (api.isConnected w.base.dev) (api.bytesAvailable w.base.dev)) api.disconnect w)
        (.seq (.wait 5 (.cond (ask api.isIdle))) (.act (call .done id))))))))) :: [.run (.setEntry 6)]) s := by
  refine .ite (fun _ => .back rfl (.nil (.inl ⟨he, h⟩))) fun _ => ?_
  refine .back rfl (.back rfl (.back rfl (.back rfl (.back rfl (.back rfl (.back rfl (.back rfl (.back rfl (.back rfl ?_)))))))))
  exact data_into (Nat.le_refl _) (hasRead_call (fun _ h => (by cases h)) h)

theorem session_into {s : Duff.St (World D)} (h : ¬ HasRead s.user) :
    Into (Phase k 0) (.run (Prog.expand (session k api)) :: [.run (.setEntry 6)]) s := by
  refine .back rfl (.back rfl (.back rfl (.back rfl (.back rfl (.back rfl (.back rfl (.back rfl (.back rfl (.back rfl (.back rfl
    (.back rfl (.back rfl ?_))))))))))))
  refine conn_into (by show 2 ≤ 3; omega) ?_
  exact hasRead_call (fun _ h => (by cases h)) (hasRead_call (fun _ h => (by cases h)) (hasRead_call (fun _ h => (by cases h)) h))

/-- A call before the loop. -/
theorem call_early {t : Nat} {s s' : Duff.St (World D)} (he : s.entry ≤ 3) (h : ¬ HasRead s.user) (hc : Duff.Call (text k api) t s s') :
    Phase k 0 s' := by
  obtain ⟨task, entry, user⟩ := s
  obtain ⟨dt, wait, print⟩ := k
  simp only at he h
  have key : ∀ u : World D, ¬ HasRead u → Into (Phase ⟨true, wait, print⟩ 0) [.run (.unless (ask api.modemDetected)),
      .run (.act (call .getDetectedModem api.getDetectedModem)), .run (Prog.expand (session ⟨true, wait, print⟩ api)), .run (.setEntry 6)]
      ⟨(task.setLastRun t).setDelay 0, 1, u⟩ ∧ Into (Phase ⟨true, wait, print⟩ 0) [.run (.unless (ask api.modemDetected)),
      .run (.act (call .getDetectedModem api.getDetectedModem)), .run (Prog.expand (session ⟨true, wait, print⟩ api)), .run (.setEntry 6)]
      ⟨task.setLastRun t, 1, u⟩ := by
    intro u hu
    constructor <;>
    · refine .ite (fun _ => .back rfl (.nil (.inl ⟨by show 1 ≤ 3; omega, hu⟩))) fun _ => ?_
      exact .back rfl (.back rfl (session_into (hasRead_call (fun _ h => (by cases h)) hu)))
  have e : entry = 0 ∨ entry = 1 ∨ entry = 2 ∨ entry = 3 := by omega
  rcases e with rfl | rfl | rfl | rfl
  · refine Into.call ?_ hc
    cases dt
    · exact .back rfl (.back rfl (.back rfl (session_into h)))
    · refine .back rfl (.back rfl (.back rfl (.back rfl (.back rfl (.back rfl (.back rfl (.back rfl (.back rfl (.back rfl (.back rfl ?_))))))))))
      exact (key _ (hasRead_call (c := .startDetection) (fun _ h => (by cases h)) h)).1
  · refine Into.call ?_ hc
    cases dt
    · exact .nil (.inl ⟨he, h⟩)
    · exact (key _ h).2
  · refine Into.call ?_ hc
    cases dt <;> exact conn_into he h
  · refine Into.call ?_ hc
    cases dt <;> exact data_into he h

/-- A call after that. -/
theorem call_beyond {t n : Nat} {s s' : Duff.St (World D)} (h : Beyond k n s) (hc : Duff.Call (text k api) t s s') : Beyond k (n + 1) s' := by
  obtain ⟨task, entry, user⟩ := s
  obtain ⟨dt, wait, print⟩ := k
  rcases h with ⟨h, hd, hn, hi⟩ | ⟨h | h, hg⟩
  · simp only at h hn; subst h
    refine Into.call ?_ hc
    cases dt <;> exact .back rfl (rounds_into (Nat.succ_le_succ hn))
  · simp only at h; subst h
    refine Into.call ?_ hc
    cases dt <;> exact idle_into rfl hg
  · simp only at h; subst h
    refine Into.call ?_ hc
    cases dt <;> exact .nil (.inr ⟨.inr rfl, hg⟩)

theorem beyond_others {n : Nat} {s : Duff.St (World D)} {v : World D} (r : Others s.user v) (h : Beyond k n s) : Beyond k n { s with user := v } := by
  rcases h with ⟨h, hd, hn, hi⟩ | ⟨h, c, m, hg⟩
  · exact .inl ⟨h, hd, by show n ≤ v.i; rw [r.1]; exact hn, by show v.i < 400; rw [r.1]; exact hi⟩
  · exact .inr ⟨h, c, m, by show _ ∈ v.base.log; rw [r.2.2.1]; exact hg⟩

theorem calls_beyond {xs : List (Nat × (World D → World D))} {n : Nat} {s s' : Duff.St (World D)} (h : Beyond k n s)
    (hx : ∀ x ∈ xs, ∀ w, Others w (x.2 w)) (hc : Duff.Calls (text k api) xs s s') : Beyond k (n + xs.length) s' := by
  induction hc generalizing n with
  | nil => exact h
  | @cons t g xs s s1 s2 c _ ih =>
    have := ih (call_beyond (s := { s with user := g s.user }) (beyond_others (hx _ (List.mem_cons_self ..) s.user) h) c)
      fun x hx' => hx x (List.mem_cons_of_mem _ hx')
    rw [List.length_cons, ← Nat.add_assoc, Nat.add_right_comm]
    exact this

theorem calls_phase {xs : List (Nat × (World D → World D))} {s s' : Duff.St (World D)} (h : Phase k 0 s)
    (hx : ∀ x ∈ xs, ∀ w, Others w (x.2 w)) (hc : Duff.Calls (text k api) xs s s') : Phase k 0 s' := by
  induction hc with
  | nil => exact h
  | @cons t g xs s s1 s2 c _ ih =>
    have r := hx _ (List.mem_cons_self ..) s.user
    refine ih ?_ fun x hx' => hx x (List.mem_cons_of_mem _ hx')
    rcases h with ⟨h1, h2⟩ | h
    · refine call_early (s := { s with user := g s.user }) h1 ?_ c
      rintro ⟨bs, hb⟩
      exact h2 ⟨bs, by rw [← r.2.2.1]; exact hb⟩
    · exact ((call_beyond (s := { s with user := g s.user }) (beyond_others r h) c).mono (Nat.zero_le _)).phase

/-- The task itself makes the calls its thread makes. -/
theorem plays_turns' {d : D} {xs : List (Nat × (World D → World D))} {th : Thread (World D)}
    (h : Thread.Turns xs (Thread.fresh (body k api) 0 (start d)) th) :
    ∃ st, Duff.Calls (text k api) xs (Duff.init 0 (Task.init 0 0) (start d)) st ∧ st.user = th.user := by
  obtain ⟨st, hc, hu, _⟩ := (Props.Thread.C83_thread (body_good k api) (t := Task.init 0 0) rfl xs (start d) th.user th.delay).2 ⟨th, h, rfl, rfl⟩
  exact ⟨st, hc, hu⟩

end Verif.Counted
