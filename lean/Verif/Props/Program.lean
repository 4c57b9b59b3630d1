import Verif.Lemmas.ProgramPlays

/-!
# C86: the program examples/linux/ipcommdevice.cpp from its first instruction

Any modem or none, any behaviour of the serial port, any ticks.
-/

namespace Verif.Props.Program

open ModemDetect Client Verif.Program Spec.Client Spec.Program

/-- However long the program has been running, the task has kept the rules: no call before there is a driver, one request, every received
byte read before it disconnects. The scheduler has stayed within its list. -/
theorem C86_program {p : Platform} {b : Mems} (hl : b.line.length = lineMax + 1) {body : Bodies Main} (hb : Bodied p b body)
    (rmem wmem : List Byte) (junk : Nat) (feed : Nat → Hw) (opens : Nat → Bool) (ticks : List Nat) :
    let s := (Sched.runTasks body (main rmem wmem junk feed opens) ticks).1
    Proper s.world.user ∧ s.ub = false := by
  have h := (Going.init (p := p) (b := b) rmem wmem junk feed opens).all hb ticks
  exact ⟨h.proper hl ⟨[], Ser.rxRep_init _ _ _⟩ rfl, h.ub⟩

/-- Every call of the task's `run()` returns, in whatever state: no task keeps the others waiting. -/
theorem C86_returns (p : Platform) (b : Mems) (t : Nat) (s : Duff.St (World MD)) : ∃ s', Duff.Call (text (api p b)) t s s' := returns t s

/-- So the three functions exist as functions, and `C86_program` speaks about the program. -/
theorem C86_bodies (p : Platform) (b : Mems) : ∃ body, Bodied p b body := by
  refine ⟨fun i w ts => match i, ts with
    | 0, t :: ts =>
      let s := Classical.choose (returns (p := p) (b := b) t.lastRun ⟨t, w.entry, w.user⟩)
      ({ w with entry := s.entry, user := s.user }, s.task :: ts)
    | 1, t0 :: t1 :: ts =>
      let m := step p w.user.dev (.run (w.opens w.n))
      ({ w with user := { w.user with dev := m }, n := w.n + 1 }, t0 :: t1.setDelay m.delay :: ts)
    | _, ts => ({ w with user := { w.user with dev := step p w.user.dev (.irq [w.feed w.n]) }, n := w.n + 1 }, ts), ?_, ?_, ?_⟩
  · intro w t ts
    exact ⟨_, Classical.choose_spec (returns (p := p) (b := b) t.lastRun ⟨t, w.entry, w.user⟩), rfl⟩
  · exact fun _ _ _ _ => rfl
  · exact fun _ _ => rfl

/-- The program with a WiSUN modem, byte by byte: it finds the modem, opens the connection, sends the request, prints the answer and ends. -/
theorem C86_session {body : Bodies Main} (hb : Bodied Sess.arm mems body) :
    let s := (Sched.runTasks body fresh ((List.range 1050).map (2000 * ·))).1
    s.world.user.log = opening ++ [.read b!"abc", .disconnect false 0, .done] ∧ s.world.user.shown = b!"abc" ∧
      s.world.user.dev.serial.sent = b!"AT+CGMM\r\nATE0\r\nAT+CIPSTART=\"TCP\",\"wttr.in\",80\r\nAT+CIPSEND=42\r\n" ++ request.take 42 ++
        b!"AT+CIPSEND=28\r\n" ++ request.drop 42 ++ b!"AT+CIPRECVDATA=3\r\n" := by
  have e : (turns Sess.arm mems 60 ((List.range 1050).map (2000 * ·)) fresh).map
      (fun s => (s.world.user.log, s.world.user.shown, s.world.user.dev.serial.sent)) =
      some (opening ++ [.read b!"abc", .disconnect false 0, .done], b!"abc",
        b!"AT+CGMM\r\nATE0\r\nAT+CIPSTART=\"TCP\",\"wttr.in\",80\r\nAT+CIPSEND=42\r\n" ++ request.take 42 ++
        b!"AT+CIPSEND=28\r\n" ++ request.drop 42 ++ b!"AT+CIPRECVDATA=3\r\n") := by decide +kernel
  obtain ⟨s, h1, h2⟩ := Option.map_eq_some_iff.mp e
  rw [turns_eq hb h1]
  exact ⟨congrArg (·.1) h2, congrArg (·.2.1) h2, congrArg (·.2.2) h2⟩

example : mems.line.length = lineMax + 1 := rfl

end Verif.Props.Program
