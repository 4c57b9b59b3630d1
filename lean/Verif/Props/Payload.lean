import Verif.Lemmas.PaySim7x00
import Verif.Lemmas.PaySim800
import Verif.Lemmas.PayEspressif
import Verif.Lemmas.PayCC1352P7
import Verif.Lemmas.TxForm
import Verif.Lemmas.Decimal
import Verif.Spec.Sessions

/-!
# C33, C34, C35: payload of the application on its way to the modem

For every history of a driver from its constructor: arbitrary calls of the application, arbitrary bytes
from the modem at arbitrary times, arbitrary sizes of all buffers.
-/

namespace Verif.Props.Payload

open Verif Dev Spec

/-! ## C33: payload only after the prompt, C34: the announced number of bytes

`Prompted prompts status args t`: the trace `t` ends with a send command followed by the strings `args`,
an answer of the modem that starts with one of `prompts`, and then nothing but commands from `status`. -/

/-- Payload leaves the driver only after the send command and the prompt or the notice that the peer closed; the
number in the command is the number of payload bytes. -/
theorem C33_sim7x00 (p : Platform) (rx tx : List Byte) (sched : List (List Hw))
    (rmem wmem : List Byte) (t : ConnType) (line ip id : List Byte) (hl : line.length = 61)
    (ops : List Op) :
    let d := exec (Sim7x00.step p) (Sim7x00.init (Ser.init rx tx sched) rmem wmem t line ip id) ops
    ∀ pre bs post, d.trace = pre ++ .pay bs :: post → ∃ args,
      Prompted [b!">", b!"+IPCLOSE: 0,"]
        [b!"AT+CSQ", b!"AT+CGMI", b!"AT+CGMM", b!"AT+CGSN", b!"AT+CIMI", b!"AT+CICCID"] args pre ∧
      ∃ more, args = b!"0," :: dec5 bs.length :: more ∧ (more = [b!"\r\n"] ∨ more.length = 5) := by
  intro d pre bs post ht
  have hi : Sim7x00.TxI d := Sim7x00.exec_stages (Sim7x00.txI_sections p) txInv_calls
    Sim7x00.txI_own (Sim7x00.inv_init rx tx sched rmem wmem t ip id hl)
    ⟨payOk_append (always_nil _) (new := [.apiReset]) (by simp), by simp [Sim7x00.init, SimDev.init, SimDev.resetStates]⟩ ops
  obtain ⟨args, h1, h2⟩ := hi.ok pre (.pay bs) post ht bs rfl
  exact ⟨args, (tx_form pre).2 args h1, h2⟩

/-- Payload leaves the driver only after the send command and the prompt or the notice that the peer closed; the
number in the command is the number of payload bytes. -/
theorem C33_sim800 (p : Platform) (rx tx : List Byte) (sched : List (List Hw))
    (rmem wmem : List Byte) (t : ConnType) (line ip id : List Byte) (hl : line.length = 61)
    (ops : List Op) :
    let d := exec (Sim800.step p) (Sim800.init (Ser.init rx tx sched) rmem wmem t line ip id) ops
    ∀ pre bs post, d.trace = pre ++ .pay bs :: post → ∃ args,
      Prompted [b!">", b!"0, CLOSED"]
        [b!"AT+CSQ", b!"AT+CGMI", b!"AT+CGMM", b!"AT+CGSN", b!"AT+CIMI", b!"AT+CCID"] args pre ∧
      args = [b!"0,", dec5 bs.length, b!"\r\n"] := by
  intro d pre bs post ht
  have hi : Sim800.TxI d := Sim800.exec_stages (Sim800.txI_sections p) txInv_calls
    Sim800.txI_own (Sim800.inv_init rx tx sched rmem wmem t ip id hl)
    ⟨payOk_append (always_nil _) (new := [.apiReset]) (by simp), by simp [Sim800.init, SimDev.init, SimDev.resetStates]⟩ ops
  obtain ⟨args, h1, h2⟩ := hi.ok pre (.pay bs) post ht bs rfl
  exact ⟨args, (tx_form pre).2 args h1, h2⟩

/-- Payload leaves the driver only after the send command and the prompt; the
number in the command is the number of payload bytes. -/
theorem C33_espressif (p : Platform) (rx tx : List Byte) (sched : List (List Hw))
    (rmem wmem : List Byte) (t : ConnType) (line mac : List Byte) (ssid passwd : CPtr)
    (hl : line.length = 61)
    (ops : List Op) :
    let d := exec (Espressif.step p) (Espressif.init (Ser.init rx tx sched) rmem wmem t line mac ssid passwd) ops
    ∀ pre bs post, d.trace = pre ++ .pay bs :: post → ∃ args,
      Prompted [b!">"]
        [b!"AT+CWJAP?", b!"AT+CIPSTAMAC?"] args pre ∧
      args = [dec5 bs.length, b!"\r\n"] := by
  intro d pre bs post ht
  have hi : Espressif.TxI d := Espressif.exec_stages (Espressif.txI_sections p) txInv_calls
    Espressif.txI_own (Espressif.inv_init rx tx sched rmem wmem t mac ssid passwd hl)
    ⟨payOk_append (always_nil _) (new := [.apiReset]) (by simp), by simp [Espressif.init, Espressif.resetStates]⟩ ops
  obtain ⟨args, h1, h2⟩ := hi.ok pre (.pay bs) post ht bs rfl
  exact ⟨args, (tx_form pre).2 args h1, h2⟩

/-- Payload leaves the driver only after the send command and the prompt; the
number in the command is the number of payload bytes. -/
theorem C33_cc1352p7 (p : Platform) (rx tx : List Byte) (sched : List (List Hw))
    (rmem wmem : List Byte) (t : ConnType) (line mac : List Byte) (hl : line.length = 61)
    (ops : List Op) :
    let d := exec (CC1352P7.step p) (CC1352P7.init (Ser.init rx tx sched) rmem wmem t line mac) ops
    ∀ pre bs post, d.trace = pre ++ .pay bs :: post → ∃ args,
      Prompted [b!">"]
        [b!"AT+CSQ", b!"AT+CIPSTAMAC"] args pre ∧
      args = [dec5 bs.length, b!"\r\n"] := by
  intro d pre bs post ht
  have hi : CC1352P7.TxI d := CC1352P7.exec_stages (CC1352P7.txI_sections p) txInv_calls
    CC1352P7.txI_own (CC1352P7.inv_init rx tx sched rmem wmem t mac hl)
    ⟨payOk_append (always_nil _) (new := [.apiReset]) (by simp), by simp [CC1352P7.init, CC1352P7.resetStates]⟩ ops
  obtain ⟨args, h1, h2⟩ := hi.ok pre (.pay bs) post ht bs rfl
  exact ⟨args, (tx_form pre).2 args h1, h2⟩

/-! ## C33 fails for the cellular drivers: no prompt at all -/

/-- Five bytes of the application, ready to be sent. -/
def wr : List Op := [.write [1, 2, 3, 4, 5], .run true, .run true]

/-- Payload is written to a modem that never answered with the prompt. -/
theorem C33_sim7x00_unprompted : ∃ ops,
    let d := exec (Sim7x00.step Sess.arm) Sess.sim7x00 ops
    ∃ pre bs post, d.trace = pre ++ .pay bs :: post ∧ bs ≠ [] ∧
      ∀ l, .line l ∈ pre → ¬ b!">" <+: l := by
  have h : ∃ pre bs post,
      (exec (Sim7x00.step Sess.arm) Sess.sim7x00 (Sess.up7x00 .tcp ++ wr ++ Sess.talk b!"+IPCLOSE: 0,1\r\n")).trace =
        pre ++ .pay bs :: post ∧ bs ≠ [] ∧
      (pre.all fun e => match e with | .line l => !(b!">").isPrefixOf l | _ => true) = true :=
    ⟨(exec (Sim7x00.step Sess.arm) Sess.sim7x00 (Sess.up7x00 .tcp ++ wr ++ Sess.talk b!"+IPCLOSE: 0,1\r\n")).trace.dropLast,
      [1, 2, 3, 4, 5], [], by decide +kernel, by decide, by decide +kernel⟩
  obtain ⟨pre, bs, post, h1, h2, h3⟩ := h
  refine ⟨Sess.up7x00 .tcp ++ wr ++ Sess.talk b!"+IPCLOSE: 0,1\r\n", pre, bs, post, h1, h2, fun l hl hp => ?_⟩
  have : (!(b!">").isPrefixOf l) = true := List.all_eq_true.mp h3 _ hl
  rw [List.isPrefixOf_iff_prefix.mpr hp] at this
  simp at this

/-- Payload is written to a modem that never answered with the prompt. -/
theorem C33_sim800_unprompted : ∃ ops,
    let d := exec (Sim800.step Sess.arm) Sess.sim800 ops
    ∃ pre bs post, d.trace = pre ++ .pay bs :: post ∧ bs ≠ [] ∧
      ∀ l, .line l ∈ pre → ¬ b!">" <+: l := by
  have h : ∃ pre bs post,
      (exec (Sim800.step Sess.arm) Sess.sim800 (Sess.up800 .tcp ++ wr ++ Sess.talk b!"0, CLOSED\r\n")).trace =
        pre ++ .pay bs :: post ∧ bs ≠ [] ∧
      (pre.all fun e => match e with | .line l => !(b!">").isPrefixOf l | _ => true) = true :=
    ⟨(exec (Sim800.step Sess.arm) Sess.sim800 (Sess.up800 .tcp ++ wr ++ Sess.talk b!"0, CLOSED\r\n")).trace.dropLast,
      [1, 2, 3, 4, 5], [], by decide +kernel, by decide, by decide +kernel⟩
  obtain ⟨pre, bs, post, h1, h2, h3⟩ := h
  refine ⟨Sess.up800 .tcp ++ wr ++ Sess.talk b!"0, CLOSED\r\n", pre, bs, post, h1, h2, fun l hl hp => ?_⟩
  have : (!(b!">").isPrefixOf l) = true := List.all_eq_true.mp h3 _ hl
  rw [List.isPrefixOf_iff_prefix.mpr hp] at this
  simp at this

/-! ## C34: the stream of payload -/

/-- The digits in the send command denote the number, if that is less than 100000. -/
theorem C34_digits (n : Nat) (h : n < 100000) :
    (∀ c ∈ dec5 n, 48 ≤ c.toNat ∧ c.toNat ≤ 57) ∧ decVal (dec5 n) = n :=
  ⟨dec5_digits n, dec5_val h⟩

/-- A larger number is announced wrongly. -/
theorem C34_digits_wrong (n : Nat) (h : 100000 ≤ n) : decVal (dec5 n) ≠ n := by
  have := dec5_val_lt n
  omega

example : dec5 123456 = b!"12345" := by decide

/-- If at most one byte leaves the transmit buffer between two accesses of the driver to it: the payload
sent so far, followed by the content of the write buffer, is what `write()` accepted since the last
`resetStates()`. -/
theorem C34_sim7x00 (p : Platform) (rx tx : List Byte) (sched : List (List Hw))
    (hs : ∀ b ∈ sched, (b.filter (·.txOk)).length ≤ 1)
    (rmem wmem : List Byte) (t : ConnType) (line ip id : List Byte) (hl : line.length = 61)
    (ops : List Op) :
    let d := exec (Sim7x00.step p) (Sim7x00.init (Ser.init rx tx sched) rmem wmem t line ip id) ops
    ∃ q, Ring.Rep d.wbuf q ∧ written.after d.trace = paid.after d.trace ++ q := by
  intro d
  have hi : Sim7x00.OutI d := Sim7x00.exec_stages (Sim7x00.outI_sections p) outInv_calls
    Sim7x00.outI_own (Sim7x00.inv_init rx tx sched rmem wmem t ip id hl)
    ⟨⟨[], Ring.rep_init wmem, rfl, by simp [Sim7x00.init, SimDev.init, SimDev.resetStates]⟩, SlowTx.later (s := Ser.init rx tx sched) hs (Ser.later_flush _)⟩ ops
  obtain ⟨⟨q, h1, h2, _⟩, _⟩ := hi
  exact ⟨q, h1, h2⟩

/-- If at most one byte leaves the transmit buffer between two accesses of the driver to it: the payload
sent so far, followed by the content of the write buffer, is what `write()` accepted since the last
`resetStates()`. -/
theorem C34_sim800 (p : Platform) (rx tx : List Byte) (sched : List (List Hw))
    (hs : ∀ b ∈ sched, (b.filter (·.txOk)).length ≤ 1)
    (rmem wmem : List Byte) (t : ConnType) (line ip id : List Byte) (hl : line.length = 61)
    (ops : List Op) :
    let d := exec (Sim800.step p) (Sim800.init (Ser.init rx tx sched) rmem wmem t line ip id) ops
    ∃ q, Ring.Rep d.wbuf q ∧ written.after d.trace = paid.after d.trace ++ q := by
  intro d
  have hi : Sim800.OutI d := Sim800.exec_stages (Sim800.outI_sections p) outInv_calls
    Sim800.outI_own (Sim800.inv_init rx tx sched rmem wmem t ip id hl)
    ⟨⟨[], Ring.rep_init wmem, rfl, by simp [Sim800.init, SimDev.init, SimDev.resetStates]⟩, SlowTx.later (s := Ser.init rx tx sched) hs (Ser.later_flush _)⟩ ops
  obtain ⟨⟨q, h1, h2, _⟩, _⟩ := hi
  exact ⟨q, h1, h2⟩

/-- If at most one byte leaves the transmit buffer between two accesses of the driver to it: the payload
sent so far, followed by the content of the write buffer, is what `write()` accepted since the last
`resetStates()`. -/
theorem C34_espressif (p : Platform) (rx tx : List Byte) (sched : List (List Hw))
    (hs : ∀ b ∈ sched, (b.filter (·.txOk)).length ≤ 1)
    (rmem wmem : List Byte) (t : ConnType) (line mac : List Byte) (ssid passwd : CPtr)
    (hl : line.length = 61)
    (ops : List Op) :
    let d := exec (Espressif.step p) (Espressif.init (Ser.init rx tx sched) rmem wmem t line mac ssid passwd) ops
    ∃ q, Ring.Rep d.wbuf q ∧ written.after d.trace = paid.after d.trace ++ q := by
  intro d
  have hi : Espressif.OutI d := Espressif.exec_stages (Espressif.outI_sections p) outInv_calls
    Espressif.outI_own (Espressif.inv_init rx tx sched rmem wmem t mac ssid passwd hl)
    ⟨⟨[], Ring.rep_init wmem, rfl, by simp [Espressif.init, Espressif.resetStates]⟩, SlowTx.later (s := Ser.init rx tx sched) hs (Ser.later_flush _)⟩ ops
  obtain ⟨⟨q, h1, h2, _⟩, _⟩ := hi
  exact ⟨q, h1, h2⟩

/-- If at most one byte leaves the transmit buffer between two accesses of the driver to it: the payload
sent so far, followed by the content of the write buffer, is what `write()` accepted since the last
`resetStates()`. -/
theorem C34_cc1352p7 (p : Platform) (rx tx : List Byte) (sched : List (List Hw))
    (hs : ∀ b ∈ sched, (b.filter (·.txOk)).length ≤ 1)
    (rmem wmem : List Byte) (t : ConnType) (line mac : List Byte) (hl : line.length = 61)
    (ops : List Op) :
    let d := exec (CC1352P7.step p) (CC1352P7.init (Ser.init rx tx sched) rmem wmem t line mac) ops
    ∃ q, Ring.Rep d.wbuf q ∧ written.after d.trace = paid.after d.trace ++ q := by
  intro d
  have hi : CC1352P7.OutI d := CC1352P7.exec_stages (CC1352P7.outI_sections p) outInv_calls
    CC1352P7.outI_own (CC1352P7.inv_init rx tx sched rmem wmem t mac hl)
    ⟨⟨[], Ring.rep_init wmem, rfl, by simp [CC1352P7.init, CC1352P7.resetStates]⟩, SlowTx.later (s := Ser.init rx tx sched) hs (Ser.later_flush _)⟩ ops
  obtain ⟨⟨q, h1, h2, _⟩, _⟩ := hi
  exact ⟨q, h1, h2⟩

/-! ### Non-vacuity: a session in which the application sends eight bytes in two blocks -/

/-- Two blocks of payload. -/
def send2 (ok : List Byte) : List Op :=
  wr ++ Sess.talk b!">" ++ Sess.talk ok ++ [.write [6, 7, 8], .run true, .run true] ++
  Sess.talk b!">" ++ Sess.talk ok

example : let t := (exec (Sim7x00.step Sess.arm) Sess.sim7x00 (Sess.up7x00 .tcp ++ send2 b!"OK\r\n")).trace
    .pay [1, 2, 3, 4, 5] ∈ t ∧ .pay [6, 7, 8] ∈ t ∧ paid.after t = [1, 2, 3, 4, 5, 6, 7, 8] := by
  decide +kernel

example : let t := (exec (Sim800.step Sess.arm) Sess.sim800 (Sess.up800 .tcp ++ send2 b!"0, SEND OK\r\n")).trace
    .pay [1, 2, 3, 4, 5] ∈ t ∧ .pay [6, 7, 8] ∈ t ∧ paid.after t = [1, 2, 3, 4, 5, 6, 7, 8] := by
  decide +kernel

example : let t := (exec (Espressif.step Sess.arm) Sess.espressif (Sess.upEsp .tcp ++ send2 b!"SEND OK\r\n")).trace
    .pay [1, 2, 3, 4, 5] ∈ t ∧ .pay [6, 7, 8] ∈ t ∧ paid.after t = [1, 2, 3, 4, 5, 6, 7, 8] := by
  decide +kernel

example : let t := (exec (CC1352P7.step Sess.arm) Sess.cc1352p7 (Sess.upCC .tcp ++ send2 b!"OK\r\n")).trace
    .pay [1, 2, 3, 4, 5] ∈ t ∧ .pay [6, 7, 8] ∈ t ∧ paid.after t = [1, 2, 3, 4, 5, 6, 7, 8] := by
  decide +kernel

/-! ### Without the condition: the race in `prepareSending`

The free space of the transmit buffer is asked for twice; if several bytes leave in between, the second,
larger value is announced, and the write buffer is read beyond its content. -/

/-- A request for the signal strength; nothing leaves the transmit buffer. -/
def fill (r : List Byte) : List Op :=
  [.requestRSSI, .run true, .run true, .irq (r.map fun c => ⟨some c, false⟩), .run true, .run true,
    .run true]

/-- The transmit buffer stays full until the `k`-th access and is then emptied. -/
def burst (k : Nat) : Ser :=
  Ser.init (List.replicate 80 0) (List.replicate 80 0)
    (List.replicate k [] ++ [List.replicate 80 ⟨none, true⟩])

/-- More payload is sent than the application has written. -/
theorem C34_sim7x00_race : ∃ ser ops,
    let t := (exec (Sim7x00.step Sess.arm) (Sim7x00.init ser (List.replicate 8 0) (List.replicate 8 0) .tcp
      (List.replicate 61 0) (List.replicate 16 0) (List.replicate 24 0)) ops).trace
    (written.after t).length < (paid.after t).length :=
  ⟨burst 641, Sess.up7x00 .tcp ++ (List.replicate 7 (fill b!"+CSQ: 5\r\nOK\r\n")).flatten ++ wr ++ Sess.talk b!">",
    by decide +kernel⟩

/-- More payload is sent than the application has written. -/
theorem C34_sim800_race : ∃ ser ops,
    let t := (exec (Sim800.step Sess.arm) (Sim800.init ser (List.replicate 8 0) (List.replicate 8 0) .tcp
      (List.replicate 61 0) (List.replicate 16 0) (List.replicate 24 0)) ops).trace
    (written.after t).length < (paid.after t).length :=
  ⟨burst 611, Sess.up800 .tcp ++ (List.replicate 7 (fill b!"+CSQ: 5\r\nOK\r\n")).flatten ++ wr ++ Sess.talk b!">",
    by decide +kernel⟩

/-- More payload is sent than the application has written. -/
theorem C34_espressif_race : ∃ ser ops,
    let t := (exec (Espressif.step Sess.arm) (Espressif.init ser (List.replicate 8 0) (List.replicate 8 0) .tcp
      (List.replicate 61 0) (List.replicate 18 0) .uninit .uninit) ops).trace
    (written.after t).length < (paid.after t).length :=
  ⟨burst 564, Sess.upEsp .tcp ++ (List.replicate 5 (fill b!"+CWJAP:\"s\",\"x\",1,-50\r\nOK\r\n")).flatten ++ wr ++ Sess.talk b!">",
    by decide +kernel⟩

/-- More payload is sent than the application has written. -/
theorem C34_cc1352p7_race : ∃ ser ops,
    let t := (exec (CC1352P7.step Sess.arm) (CC1352P7.init ser (List.replicate 8 0) (List.replicate 8 0) .tcp
      (List.replicate 61 0) (List.replicate 24 0)) ops).trace
    (written.after t).length < (paid.after t).length :=
  ⟨burst 364, Sess.upCC .tcp ++ (List.replicate 7 (fill b!"+CSQ: 5\r\nOK\r\n")).flatten ++ wr ++ Sess.talk b!">",
    by decide +kernel⟩

/-! ## C35: a status request between prompt and payload -/

/-- Between the prompt and the payload the driver sends the command `w`, which the modem takes as
payload. -/
def Disturbed (w : List Byte) (t : List Ev) : Prop :=
  ∃ pre mid bs post, t = pre ++ .line b!">" :: .cmd w w :: .arg b!"\r\n" b!"\r\n" :: mid ++ .pay bs :: post ∧
    ∀ e ∈ mid, e ≠ .line b!">" ∧ ∀ bs, e ≠ .pay bs

theorem disturbed_of {w : List Byte} {t : List Ev} (n : Nat) (l1 l2 bs : List Byte)
    (h : t.drop n = [.line b!">", .cmd w w, .arg b!"\r\n" b!"\r\n", .line l1, .line l2, .pay bs])
    (h1 : l1 ≠ b!">") (h2 : l2 ≠ b!">") : Disturbed w t := by
  refine ⟨t.take n, [.line l1, .line l2], bs, [], ?_, ?_⟩
  · have := (List.take_append_drop n t).symm
    rw [h] at this
    exact this.trans (by simp)
  · intro e he
    simp only [List.mem_cons, List.not_mem_nil, or_false] at he
    rcases he with rfl | rfl
    · exact ⟨by simpa using h1, by simp⟩
    · exact ⟨by simpa using h2, by simp⟩

/-- The request is made before the prompt arrives; the modem answers the command. -/
def ask (op : Op) (r : List Byte) : List Op :=
  wr ++ [op] ++ Sess.say b!">" ++ [.run true] ++ Sess.talk r ++ Sess.talk b!"OK\r\n"

theorem C35_sim7x00 : ∃ ops, Disturbed b!"AT+CSQ" (exec (Sim7x00.step Sess.arm) Sess.sim7x00 ops).trace :=
  ⟨Sess.up7x00 .tcp ++ ask .requestRSSI b!"+CSQ: 5\r\n",
    disturbed_of ((exec (Sim7x00.step Sess.arm) Sess.sim7x00 (Sess.up7x00 .tcp ++ ask .requestRSSI b!"+CSQ: 5\r\n")).trace.length - 6)
      b!"+CSQ: 5\r\n" b!"OK\r\n" [1, 2, 3, 4, 5] (by decide +kernel) (by decide) (by decide)⟩

theorem C35_sim7x00_id : ∃ ops, Disturbed b!"AT+CGMM" (exec (Sim7x00.step Sess.arm) Sess.sim7x00 ops).trace :=
  ⟨Sess.up7x00 .tcp ++ ask (.requestID .model) b!"m\r\n",
    disturbed_of ((exec (Sim7x00.step Sess.arm) Sess.sim7x00 (Sess.up7x00 .tcp ++ ask (.requestID .model) b!"m\r\n")).trace.length - 6)
      b!"m\r\n" b!"OK\r\n" [1, 2, 3, 4, 5] (by decide +kernel) (by decide) (by decide)⟩

theorem C35_sim800 : ∃ ops, Disturbed b!"AT+CSQ" (exec (Sim800.step Sess.arm) Sess.sim800 ops).trace :=
  ⟨Sess.up800 .tcp ++ ask .requestRSSI b!"+CSQ: 5\r\n",
    disturbed_of ((exec (Sim800.step Sess.arm) Sess.sim800 (Sess.up800 .tcp ++ ask .requestRSSI b!"+CSQ: 5\r\n")).trace.length - 6)
      b!"+CSQ: 5\r\n" b!"OK\r\n" [1, 2, 3, 4, 5] (by decide +kernel) (by decide) (by decide)⟩

theorem C35_sim800_id : ∃ ops, Disturbed b!"AT+CGMM" (exec (Sim800.step Sess.arm) Sess.sim800 ops).trace :=
  ⟨Sess.up800 .tcp ++ ask (.requestID .model) b!"m\r\n",
    disturbed_of ((exec (Sim800.step Sess.arm) Sess.sim800 (Sess.up800 .tcp ++ ask (.requestID .model) b!"m\r\n")).trace.length - 6)
      b!"m\r\n" b!"OK\r\n" [1, 2, 3, 4, 5] (by decide +kernel) (by decide) (by decide)⟩

theorem C35_espressif : ∃ ops, Disturbed b!"AT+CWJAP?" (exec (Espressif.step Sess.arm) Sess.espressif ops).trace :=
  ⟨Sess.upEsp .tcp ++ ask .requestRSSI b!"+CWJAP:\"s\",\"x\",1,-50\r\n",
    disturbed_of ((exec (Espressif.step Sess.arm) Sess.espressif (Sess.upEsp .tcp ++ ask .requestRSSI b!"+CWJAP:\"s\",\"x\",1,-50\r\n")).trace.length - 6)
      b!"+CWJAP:\"s\",\"x\",1,-50\r\n" b!"OK\r\n" [1, 2, 3, 4, 5] (by decide +kernel) (by decide) (by decide)⟩

theorem C35_espressif_mac : ∃ ops, Disturbed b!"AT+CIPSTAMAC?" (exec (Espressif.step Sess.arm) Sess.espressif ops).trace :=
  ⟨Sess.upEsp .tcp ++ ask .requestMac b!"+CIPSTAMAC:\"1\"\r\n",
    disturbed_of ((exec (Espressif.step Sess.arm) Sess.espressif (Sess.upEsp .tcp ++ ask .requestMac b!"+CIPSTAMAC:\"1\"\r\n")).trace.length - 6)
      b!"+CIPSTAMAC:\"1\"\r\n" b!"OK\r\n" [1, 2, 3, 4, 5] (by decide +kernel) (by decide) (by decide)⟩

theorem C35_cc1352p7 : ∃ ops, Disturbed b!"AT+CSQ" (exec (CC1352P7.step Sess.arm) Sess.cc1352p7 ops).trace :=
  ⟨Sess.upCC .tcp ++ ask .requestRSSI b!"+CSQ: 5\r\n",
    disturbed_of ((exec (CC1352P7.step Sess.arm) Sess.cc1352p7 (Sess.upCC .tcp ++ ask .requestRSSI b!"+CSQ: 5\r\n")).trace.length - 6)
      b!"+CSQ: 5\r\n" b!"OK\r\n" [1, 2, 3, 4, 5] (by decide +kernel) (by decide) (by decide)⟩

theorem C35_cc1352p7_mac : ∃ ops, Disturbed b!"AT+CIPSTAMAC" (exec (CC1352P7.step Sess.arm) Sess.cc1352p7 ops).trace :=
  ⟨Sess.upCC .tcp ++ ask .requestMac b!"+CIPSTAMAC:\"1\"\r\n",
    disturbed_of ((exec (CC1352P7.step Sess.arm) Sess.cc1352p7 (Sess.upCC .tcp ++ ask .requestMac b!"+CIPSTAMAC:\"1\"\r\n")).trace.length - 6)
      b!"+CIPSTAMAC:\"1\"\r\n" b!"OK\r\n" [1, 2, 3, 4, 5] (by decide +kernel) (by decide) (by decide)⟩

end Verif.Props.Payload
