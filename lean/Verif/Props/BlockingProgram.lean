import Verif.Lemmas.BlockingPace
import Verif.Props.Link
import Verif.Props.Receive
import Verif.Spec.BlockingSession

/-!
# C90: the program examples/linux/blocking.cpp from its first instruction

Any modem, any behaviour of the serial port, any clock. `main` is `none` if the program has not come to its end.
-/

namespace Verif.Props.BlockingProgram

open Verif.BlockingProgram Spec.BlockingProgram Spec

/-- **C90**, order: if the program comes to its end, it has done what it is meant to do. -/
theorem C90_order (p : Platform) (fuel : Nat) (dev : Sim7x00.D) (junk : Nat) (feed : Nat → Hw) (opens : Nat → Bool) (clock : Nat → Nat) (s : Prog)
    (h : main p fuel dev junk feed opens clock = some s) : Done s.world := main_done h

/-- **C90**, silence: a read that returns fewer than 40 bytes has lasted for more than two seconds, and these bytes are all that the driver
had in the meantime. So the program stops reading only after more than two seconds without a byte. -/
theorem C90_silence {out : List Byte} {l : List Call} (h : Reads out l) (hn : out.length < 40) :
    ∃ t0 pre t, l = .now t0 :: pre ++ [.now t] ∧ Late t0 t ∧ bytes pre = out := by
  obtain ⟨t0, l', rfl, hp⟩ := h
  obtain ⟨pre, t, rfl, h1, h2⟩ := polls_silence hp hn
  exact ⟨t0, pre, t, rfl, h1, h2⟩

/-- **C90**, integrity: what the program has read, followed by what is left in the driver, is exactly the payload the driver took from the
serial line, if the modem does not answer a request with more than it asks for. -/
theorem C90_integrity (p : Platform) (rx tx rmem wmem : List Byte) (t : ConnType) (line ip id : List Byte) (hl : line.length = 61)
    (fuel junk : Nat) (feed : Nat → Hw) (opens : Nat → Bool) (clock : Nat → Nat) (s : Prog)
    (h : main p fuel (Sim7x00.init (Ser.init rx tx []) rmem wmem t line ip id) junk feed opens clock = some s)
    (hh : Honours requestSim (headerSim p) s.world.dev.trace) :
    bytes s.world.log ++ (s.world.dev.read s.world.dev.bytesAvailable).2 = received.after s.world.dev.trace := by
  have h0 : delivered.after (Sim7x00.init (Ser.init rx tx []) rmem wmem t line ip id).trace = [] := rfl
  obtain ⟨⟨ops, e⟩, hd⟩ := reach_main h0 h
  have := (Receive.C36_sim7x00 p rx tx [] rmem wmem t line ip id hl ops).2
  rw [← e] at this
  rw [← hd]
  exact this hh

/-- **C90**, pace, in all states of the program, whatever the clock does: the driver is run in its turn, which is every second call of the
scheduler, if and only if the delay it set is over. The last conjunct: the states at the end are among them. -/
theorem C90_pace (p : Platform) (dev : Sim7x00.D) (junk : Nat) (feed : Nat → Hw) (opens : Nat → Bool) (clock : Nat → Nat) :
    (∀ s, Reached p (start p dev junk feed opens clock) s →
      Waited s.world.runs ∧ s.cur ≤ 1 ∧ (yield p s).cur = 1 - s.cur ∧
      (s.cur = 0 → Over s.world.runs (s.world.clock s.world.c) → (yield p s).world.runs =
        s.world.runs ++ [(s.world.clock s.world.c, (yield p s).world.dev.delay)] ∧
        (yield p s).world.dev = Sim7x00.step p s.world.dev (.run (s.world.opens s.world.n))) ∧
      ((s.cur = 1 ∨ ¬ Over s.world.runs (s.world.clock s.world.c)) → (yield p s).world.runs = s.world.runs)) ∧
    ∀ fuel s, main p fuel dev junk feed opens clock = some s → Reached p (start p dev junk feed opens clock) s := by
  refine ⟨fun s hs => ?_, fun fuel s h => reached_main h⟩
  have h := paced_reached (paced_start dev junk feed opens clock) hs
  exact ⟨h.waited, h.cur, (paced_yield h).2⟩

/-- **C90**, no time limit. This expectation is false here: that the program comes to its end. If the modem says nothing, it waits for ever. -/
theorem C90_mute (p : Platform) (rx tx rmem wmem : List Byte) (t : ConnType) (line ip id : List Byte) (hl : line.length = 61)
    (fuel junk : Nat) (feed : Nat → Hw) (hf : ∀ n, (feed n).rx = none) (opens : Nat → Bool) (clock : Nat → Nat) :
    main p fuel (Sim7x00.init (Ser.init rx tx []) rmem wmem t line ip id) junk feed opens clock = none := by
  have hc : ∀ s, Hush p (Sim7x00.init (Ser.init rx tx []) rmem wmem t line ip id) s → s.world.dev.isConnected = false := by
    intro s hs
    obtain ⟨⟨ops, e⟩, hu, _⟩ := hs
    cases hi : s.world.dev.isConnected with
    | false => rfl
    | true =>
      rw [e] at hi hu
      obtain ⟨pre, mid, l, post, ht, _⟩ := Link.C30_sim7x00 p rx tx [] rmem wmem t line ip id hl ops hi
      exact absurd (by rw [ht]; simp) (hu.lines l)
  have hm : Mute (Ser.init rx tx []).flushReceiveBuffers := Mute.flush ⟨rfl, rfl⟩
  have h0 : Hush p (Sim7x00.init (Ser.init rx tx []) rmem wmem t line ip id)
      (start p (Sim7x00.init (Ser.init rx tx []) rmem wmem t line ip id) junk feed opens clock) := by
    refine ⟨⟨[.setApn (some b!"internet"), .setHostPort (some b!"wttr.in") 80 .tcp, .connect], rfl⟩, ⟨?_, fun l hl => ?_⟩, hf⟩
    · exact hm
    · have e : ∀ d : Sim7x00.D, (Sim7x00.step p (Sim7x00.step p (Sim7x00.step p d (.setApn (some b!"internet"))) (.setHostPort (some b!"wttr.in") 80 .tcp))
          .connect).trace = d.trace ++ [.apiConnect] := fun _ => rfl
      have h2 : Ev.line l ∈ (Sim7x00.init (Ser.init rx tx []) rmem wmem t line ip id).trace ++ [Ev.apiConnect] := e _ ▸ hl
      rw [List.mem_append] at h2
      rcases h2 with h2 | h2
      · simp [Sim7x00.init, SimDev.init, SimDev.resetStates] at h2
      · simp at h2
  unfold main
  rw [hush_await hc fuel _ h0]

/-- The session: what the program has done but for readings of the clock and reads without a byte. -/
def gist (l : List Call) : List Call := l.filter fun x => match x with | .now _ => false | .read [] => false | _ => true

set_option maxHeartbeats 1000000 in
/-- The session, computed. -/
theorem session : (main Sess.arm 1500 dev 0 feed (fun _ => true) clock).map
      (fun s => (gist s.world.log, s.world.shown, s.world.dev.dataPending, s.world.dev.isIdle, s.world.dev.ser.sent)) =
      some ([.setApn, .setHostPort, .connect, .write 70, .read b!"abc", .disconnect], b!"abc", true, true,
        b!"ATE0\r\nAT+CGSOCKCONT=1,\"IP\",\"internet\"\r\nAT+CSOCKSETPN=1\r\nAT+CIPMODE=0\r\nAT+NETOPEN\r\nAT+CIPRXGET=1\r\n" ++
      b!"AT+CDNSGIP=\"wttr.in\"\r\nAT+CIPOPEN=0,\"TCP\",\"1.2.3.4\",80\r\nAT+CIPSEND=0,70\r\n" ++ Client.request ++
      b!"AT+CIPRXGET=4,0\r\nAT+CIPRXGET=2,0,3\r\nAT+CIPRXGET=4,0\r\nAT+NETCLOSE\r\n") := by
  decide +kernel

/-- **C90**, pause. This expectation is false here: that the whole answer is printed. The server makes a pause of more than four seconds; the
program prints what came before and disconnects, although the modem has announced more. -/
theorem C90_pause : ∃ s, main Sess.arm 1500 dev 0 feed (fun _ => true) clock = some s ∧
    gist s.world.log = [.setApn, .setHostPort, .connect, .write 70, .read b!"abc", .disconnect] ∧ s.world.shown = b!"abc" ∧
    s.world.dev.dataPending = true ∧ s.world.dev.isIdle = true ∧
    s.world.dev.ser.sent = b!"ATE0\r\nAT+CGSOCKCONT=1,\"IP\",\"internet\"\r\nAT+CSOCKSETPN=1\r\nAT+CIPMODE=0\r\nAT+NETOPEN\r\nAT+CIPRXGET=1\r\n" ++
      b!"AT+CDNSGIP=\"wttr.in\"\r\nAT+CIPOPEN=0,\"TCP\",\"1.2.3.4\",80\r\nAT+CIPSEND=0,70\r\n" ++ Client.request ++
      b!"AT+CIPRXGET=4,0\r\nAT+CIPRXGET=2,0,3\r\nAT+CIPRXGET=4,0\r\nAT+NETCLOSE\r\n" := by
  obtain ⟨s, h1, h2⟩ := Option.map_eq_some_iff.mp session
  rw [Prod.mk.injEq, Prod.mk.injEq, Prod.mk.injEq, Prod.mk.injEq] at h2
  exact ⟨s, h1, h2⟩

/-- Non-vacuous: the session meets the hypotheses of `C90_order`; one of its reads, of three bytes. -/
example : (∃ s, main Sess.arm 1500 dev 0 feed (fun _ => true) clock = some s ∧ Done s.world) ∧
    Reads b!"abc" [.now 5, .now 5, .read [], .now 6, .read b!"abc", .now 2006] := by
  obtain ⟨s, h, _⟩ := C90_pause
  refine ⟨⟨s, h, C90_order _ _ _ _ _ _ _ _ h⟩, 5, _, rfl, ?_⟩
  exact .more (bs := []) (by decide) (by unfold Late; omega) (by decide) (.more (bs := b!"abc") (out := []) (by decide) (by unfold Late; omega) (by decide)
    (.late (by decide) (by unfold Late; omega)))

/-- The first runs of the driver in the session. -/
example : ((main Sess.arm 1500 dev 0 feed (fun _ => true) clock).map fun s => s.world.runs.take 3) = some [(0, 0), (20, 10), (40, 10)] := by
  decide +kernel

end Verif.Props.BlockingProgram
