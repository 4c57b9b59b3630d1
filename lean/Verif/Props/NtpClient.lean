import Verif.Lemmas.NtpClient
import Verif.Lemmas.Plays

/-!
# Property C95: the NTP examples
-/

namespace Verif.Props.NtpClient

open Verif.NtpClient Spec.NtpClient
open Verif.Ntp (World Call epoch start)
open Spec.Ntp (request overlay Others)
open Spec.Threads

variable {D : Type}

/-- C95: whatever the driver answers and whatever happens between the calls: the request is sent once, while connected; one answer is read, when
there is one, the time in it is printed, and the task disconnects and waits until the driver is idle. `detect`: the example for Linux. -/
theorem C95_order (detect : Bool) {api : Verif.Client.Api D} (hr : Reads api) {t : Task} (ht : t.timeoutRunning = false)
    {xs : List (Nat × (World D → World D))} {d : D} {junk : List Byte} (hx : ∀ x ∈ xs, ∀ w, Others w (x.2 w)) {s : Duff.St (World D)}
    (hc : Duff.Calls (text detect api) xs (Duff.init 0 t (start d junk)) s) : Tells detect s.user := tells hr ht hx hc

/-- The drivers do as `Reads` demands, whatever their `run()` does. -/
theorem C95_drivers {S R X : Type} (step : Dev S R X → Op → Dev S R X) (conf : List Op) : Reads (Verif.Ntp.driver step conf) :=
  fun x n => Ring.length_pullN n x.2.rbuf

/-- If at least 44 bytes were there, what is printed is the time of the server, until the year 2106: `S` are the seconds since 1900, of which the
server sends the low 32 bits, most significant byte first. -/
theorem C95_time (bs : List Byte) (S : Nat) (hl : 44 ≤ bs.length) (h0 : 2208988800 ≤ S) (h1 : S < 2208988800 + 4294967296)
    (hs : (bs.getD 40 0).toNat * 16777216 + (bs.getD 41 0).toNat * 65536 + (bs.getD 42 0).toNat * 256 + (bs.getD 43 0).toNat = S % 4294967296) :
    epoch (overlay bs) = S - 2208988800 := by
  unfold epoch
  simp only [getD_overlay]
  rw [if_pos (by omega), if_pos (by omega), if_pos (by omega), if_pos (by omega)]
  show (((bs.getD 40 0).toNat * 16777216 + (bs.getD 41 0).toNat * 65536 + (bs.getD 42 0).toNat * 256 + (bs.getD 43 0).toNat) + 4294967296 - 2208988800) % 4294967296 = _
  rw [hs]
  omega

/-- "What is printed is the time of the server" is false if the answer comes in pieces: with 40 bytes or fewer it is always the same moment in
2036. -/
theorem C95_short (bs : List Byte) (hl : bs.length ≤ 40) : epoch (overlay bs) = 2085978496 := by
  unfold epoch
  simp only [getD_overlay]
  rw [if_neg (by omega), if_neg (by omega), if_neg (by omega), if_neg (by omega)]
  rfl

/-- "The task comes to its end" is false: the request or its answer may get lost, there is no second one, and the task waits for ever. -/
theorem C95_mute (detect : Bool) {api : Verif.Client.Api D} (hm : ∀ d, api.bytesAvailable d = 0) {t : Task} (ht : t.timeoutRunning = false)
    {xs : List (Nat × (World D → World D))} {d : D} {junk : List Byte} (hx : ∀ x ∈ xs, ∀ w, Others w (x.2 w)) {s : Duff.St (World D)}
    (hc : Duff.Calls (text detect api) xs (Duff.init 0 t (start d junk)) s) : s.user.log <+: asked detect ∧ s.user.printed = none :=
  mute hm ht hx hc

/-- Every call of `run()` returns, in whatever state. -/
theorem C95_returns (detect : Bool) (api : Verif.Client.Api D) (t : Nat) (s : Duff.St (World D)) : ∃ s', Duff.Call (text detect api) t s s' :=
  (text_finitely detect api).call t s

/-- `byteSwap()` of the STM32 example yields the number whose most significant byte comes first. -/
theorem C95_swap (a b c d : BitVec 8) : (byteSwap (word a b c d)).toNat = a.toNat * 16777216 + b.toNat * 65536 + c.toNat * 256 + d.toNat := by
  rw [swap_word, toNat_word]

/-- A modem which is always connected and has received `bs`. -/
def got (bs : List Byte) : Verif.Client.Api Unit where
  startDetection := id
  modemDetected _ := true
  getDetectedModem := id
  configure := id
  setHostPort := id
  connect := id
  isConnected _ := true
  write d _ := d
  bytesAvailable _ := bs.length
  read d n := (d, bs.take n)
  disconnect := id
  isIdle _ := true

example (bs : List Byte) : Reads (got bs) := fun _ n => List.length_take

/-- The answer of a server in November 2021. -/
def answer : List Byte := List.replicate 40 7 ++ [0xe5, 0x38, 0x5b, 0x31, 0, 0, 0, 0]

/-- The task with this answer, and with its first half. -/
example : ((Verif.Client.plays 60 [(0, id)] (Thread.fresh (body true (got answer)) 0 (start () []))).map fun th => (th.user.log, th.user.printed)) =
      some (asked true ++ [.read 48 answer, .disconnect, .done true], some 1636687025) ∧
    ((Verif.Client.plays 60 [(0, id)] (Thread.fresh (body false (got (answer.take 24))) 0 (start () []))).map fun th => th.user.printed) =
      some (some 2085978496) := by decide +kernel

example : epoch (overlay answer) = 3845675825 - 2208988800 := C95_time answer 3845675825 (by decide) (by decide) (by decide) (by decide +kernel)

end Verif.Props.NtpClient
