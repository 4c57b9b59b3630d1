import Verif.Spec.Modem
import Verif.Spec.Early

/-!
# A modem that delivers datagrams

In a connection that is not TCP, the modem does not keep what it gets from the network until it is asked for it: it passes on
each datagram at once, after a header with its length. Datagrams and lines without meaning arrive in portions of any size, at any
time, as long as there is room in the serial receive buffer. `run()` and `read()` are called at any time.
-/

namespace Verif.Spec

/-- What the modem says. -/
inductive Mail
  | noise (l : List Byte)
  | datagram (b : List Byte)

/-- The part that the driver reads as a line. -/
def Mail.head : Mail → List Byte
  | .noise l => l
  | .datagram b => b!"+IPD," ++ decimals b.length ++ [58]

/-- The part that is data. -/
def Mail.body : Mail → List Byte
  | .noise _ => []
  | .datagram b => b

/-- The datagrams. -/
def Mail.data : Mail → List (List Byte)
  | .noise _ => []
  | .datagram b => [b]

/-- The bytes on the cable. -/
def Mail.text (m : Mail) : List Byte := m.head ++ m.body

/-- What the modem may say, with a receive buffer of `rx` bytes. Datagrams are not empty, and not bigger than the receive buffer;
other lines have none of the meanings `bad`, and no colon. -/
def Mail.Ok (bad : List (List Byte)) (rx : Nat) : Mail → Prop
  | .noise l => IsLine l ∧ Clear bad l ∧ (58 : Byte) ∉ l
  | .datagram b => b ≠ [] ∧ b.length ≤ rx ∧ b.length < 2 ^ 31

/-- Driver, what the modem has said but has not arrived, and all datagrams the modem has passed on. -/
structure Post (D : Type) where
  drv : D
  air : List Byte
  came : List (List Byte)

/-- What can happen. -/
inductive Deed
  | run
  | read (k : Nat)
  | pass (k : Nat)
  | says (m : Mail)

/-- The modem says nothing new. -/
def Deed.still : Deed → Bool
  | .says _ => false
  | _ => true

section
variable {S R X : Type} (step : Dev S R X → Op → Dev S R X)

/-- Free bytes in the receive buffer. -/
def Post.room (w : Post (Dev S R X)) : Nat := w.drv.ser.readBufferSize - w.drv.ser.bytesAvailable.2

/-- What happens. `pass k`: up to `k + 1` bytes arrive. The modem says something only if the read buffer has room for all datagrams
the application has not read. -/
def Post.act (w : Post (Dev S R X)) : Deed → Post (Dev S R X)
  | .run => { w with drv := exec step w.drv [.run true] }
  | .read k => { w with drv := exec step w.drv [.read k] }
  | .pass k =>
    { w with
      drv := exec step w.drv [lands (w.air.take (min (k + 1) w.room))]
      air := w.air.drop (min (k + 1) w.room) }
  | .says m =>
    if (w.came ++ m.data).flatten.length ≤ (handed w.drv.trace).length + w.drv.rbuf.size then
      { w with air := w.air ++ m.text, came := w.came ++ m.data }
    else w

/-- Some deeds, one after the other. -/
def Post.acts (w : Post (Dev S R X)) (as : List Deed) : Post (Dev S R X) := as.foldl (Post.act step) w

end

/-- Nothing is lost, doubled or reordered, the connection is up, and the application sees whole datagrams only: what it has read and
what it can read are the first datagrams that came. -/
structure Post.Sound {S R X : Type} (w : Post (Dev S R X)) : Prop where
  came : handed w.drv.trace <+: w.came.flatten
  whole : ∃ k, (handed w.drv.trace).length + w.drv.bytesAvailable = (w.came.take k).flatten.length
  connected : w.drv.isConnected = true

/-- A round: some bytes arrive, then `run()` is called; the application may read, and more may happen, in any order. -/
def Delivers (as : List Deed) : Prop :=
  (∀ a ∈ as, a.still = true) ∧ ∃ xs k ys zs, as = xs ++ .pass k :: ys ++ .run :: zs

/-- A number of rounds after which everything has been received. -/
def Post.effort {S R X : Type} (w : Post (Dev S R X)) : Nat := 3 * (w.air.length + w.drv.ser.bytesAvailable.2) + 1

end Verif.Spec
