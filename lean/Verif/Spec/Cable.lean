import Verif.Spec.Modem
import Verif.Spec.Early

/-!
# A modem at the other end of a cable

As in `Verif/Spec/Modem.lean`, but driver and modem do not wait for each other. The modem says things whenever it likes, and
does not wait until the driver has heard them: they are on their way. They arrive in portions of any size, at any time, in
the receive buffer, where they wait for the driver. `run()` is called at any time, no matter what has arrived.

The cable has a flow control: bytes arrive only as long as there is room in the receive buffer. The driver's commands have left
the transmit buffer when `run()` is called again.
-/

namespace Verif.Spec

/-- Driver, modem, and what the modem has said but has not arrived. -/
structure Cable (D : Type) where
  drv : D
  modem : Modem
  air : List Byte

section
variable {S R X : Type} (c : Scene) (step : Dev S R X → Op → Dev S R X)

/-- Free bytes in the receive buffer. -/
def Cable.room (w : Cable (Dev S R X)) : Nat := w.drv.ser.readBufferSize - w.drv.ser.bytesAvailable.2

/-- What can happen. `pass k`: up to `k + 1` bytes arrive. -/
def Cable.act (w : Cable (Dev S R X)) : Act → Cable (Dev S R X)
  | .run => go [.irq (List.replicate c.tx ⟨none, true⟩), .run true]
  | .write bs => go [.write bs]
  | .read k => go [.read k]
  | .noise l => says (w.modem.say c.tongue (.noise l))
  | .tell => says (w.modem.say c.tongue .tell)
  | .speak => says (w.modem.say c.tongue .speak)
  | .give k => says (w.modem.give (k + 1))
  | .net bs loud => if w.modem.inbox.length + bs.length ≤ c.cap then { w with modem := w.modem.arrive c.tongue bs loud } else w
  | .pass k =>
    { w with
      drv := exec step w.drv [lands (w.air.take (min (k + 1) w.room))]
      air := w.air.drop (min (k + 1) w.room) }
where
  /-- The driver does its part; the modem hears what the driver says. -/
  go (ops : List Op) : Cable (Dev S R X) :=
    let d := exec step w.drv ops
    ⟨d, ((utter d.trace).drop (utter w.drv.trace).length).foldl (Modem.listen c.tongue) w.modem, w.air⟩
  /-- The modem says something. -/
  says : Option (List Byte × Modem) → Cable (Dev S R X)
    | some (l, m) => { w with modem := m, air := w.air ++ l }
    | none => w

/-- Some acts, one after the other. -/
def Cable.acts (w : Cable (Dev S R X)) (as : List Act) : Cable (Dev S R X) := as.foldl (Cable.act c step) w

/-- Everything has arrived, and `run()` has read it: nothing waits in the receive buffer, except bytes of a block that is not
complete. -/
structure Cable.Drained (w : Cable (Dev S R X)) : Prop where
  air : w.air = []
  empty : w.drv.ser.bytesAvailable.2 = 0 ∨ w.drv.ser.bytesAvailable.2 < w.drv.bytesToRead

/-- Everybody gets a chance: the application reads at least one byte, and the modem says something of each kind, in any
order. In the end, everything has arrived, and `run()` has read it. -/
structure Cable.Round (w : Cable (Dev S R X)) (as : List Act) : Prop where
  still : ∀ a ∈ as, a.still = true
  read : ∃ k, 0 < k ∧ .read k ∈ as
  tell : .tell ∈ as
  speak : .speak ∈ as
  give : ∃ k, .give k ∈ as
  run : ∃ us, as = us ++ [.run]
  drained : (w.acts c step as).Drained

/-- Rounds, one after the other. -/
inductive Cable.Rounds : Cable (Dev S R X) → List (List Act) → Prop
  | nil {w} : Rounds w []
  | cons {w as rs} : w.Round c step as → Rounds (w.acts c step as) rs → Rounds w (as :: rs)

end

/-- Nothing is lost, doubled or reordered on its way, and the connection is up. What was accepted is with the modem or in the
write buffer; what was handed to the application are the first bytes that came, and none of the bytes in the read buffer, of the
block that is being received and of those with the modem were handed to it. -/
structure Cable.Sound {S R X : Type} (w : Cable (Dev S R X)) : Prop where
  out : w.modem.outbox <+: accepted w.drv.trace
  outRest : (accepted w.drv.trace).length = w.modem.outbox.length + w.drv.wbuf.bytesAvailable
  came : handed w.drv.trace <+: w.modem.came
  cameRest : (handed w.drv.trace).length + w.drv.rbuf.bytesAvailable + w.drv.bytesToRead + w.modem.inbox.length ≤ w.modem.came.length
  connected : w.drv.isConnected = true
  whole : Whole w.drv.trace

/-- Everything was delivered, and the connection is up. -/
structure Cable.Settled {S R X : Type} (w : Cable (Dev S R X)) : Prop where
  out : w.modem.outbox = accepted w.drv.trace
  came : handed w.drv.trace = w.modem.came
  connected : w.drv.isConnected = true

/-- A number of rounds after which everything is delivered. -/
def Cable.effort {S R X : Type} (w : Cable (Dev S R X)) : Nat :=
  132 * (w.modem.came.length - (handed w.drv.trace).length) + 100 * w.drv.wbuf.bytesAvailable + 111

end Verif.Spec
