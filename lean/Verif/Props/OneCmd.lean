import Verif.Lemmas.WaitSim7x00
import Verif.Lemmas.WaitSim800
import Verif.Lemmas.WaitEspressif
import Verif.Lemmas.WaitCC1352P7
import Verif.Lemmas.OneTx
import Verif.Spec.Sessions

/-!
# C32: one command at a time

For every history of a driver from its constructor: between a command (or block of payload) and the next
one there is an answer of the modem that completes the first, or the receive buffers were flushed because
of a modem reset, or the application called `resetStates()`. The answers are those of the tables in
`Verif.Spec.Waiting`. In every state one call of `run()` transmits at most once.
-/

namespace Verif.Props.OneCmd

open Verif Dev Spec

/-- After a command or a block of payload the driver transmits nothing until the modem has answered it. -/
theorem C32_sim7x00 (p : Platform) (rx tx : List Byte) (sched : List (List Hw))
    (rmem wmem : List Byte) (t : ConnType) (line ip id : List Byte) (hl : line.length = 61) (ops : List Op) :
    let d := exec (Sim7x00.step p) (Sim7x00.init (Ser.init rx tx sched) rmem wmem t line ip id) ops
    ∀ pre e mid e' post k, d.trace = pre ++ e :: mid ++ e' :: post → sent e = some k → sent e' ≠ none →
      (∀ x ∈ mid, sent x = none) →
      (∃ l, .line l ∈ mid ∧ repliesSim7x00.ends k l = true) ∨ .flush ∈ mid ∨ .apiReset ∈ mid := by
  intro d pre e mid e' post k ht he he' hm
  have hi : Sim7x00.WaitI d := Sim7x00.exec_stages (Sim7x00.waitI_sections p) waitInv_calls
    Sim7x00.waitI_own (Sim7x00.inv_init rx tx sched rmem wmem t ip id hl)
    ⟨sentOk_append (always_nil _) (new := [.apiReset]) (by simp [sent]), by
      simp [Sim7x00.init, SimDev.init, SimDev.resetStates, pend, Observer.after]⟩ ops
  exact sentOk_form hi.ok ht he he' hm

/-- In every state, one call of `run()` gives at most one command or block of payload. -/
theorem C32_sim7x00_run (p : Platform) (d : Sim7x00.D) (openOk : Bool) :
    ∃ new, (Sim7x00.run p d openOk).trace = d.trace ++ new ∧
      (new.filter fun e => (sent e).isSome).length ≤ 1 :=
  (Sim7x00.adds_run p d openOk).le

example :
    let d := exec (Sim7x00.step Sess.arm) Sess.sim7x00 (Sess.up7x00 .tcp)
    let e : Ev := .cmd b!"ATE0" b!"ATE0"
    let e' : Ev := .cmd b!"AT+CGSOCKCONT=1,\"IP\",\"" b!"AT+CGSOCKCONT=1,\"IP\",\""
    let mid : List Ev := [.arg b!"\r\n" b!"\r\n", .line b!"OK\r\n"]
    d.trace = d.trace.take 2 ++ e :: mid ++ e' :: d.trace.drop 6 ∧ sent e = some (some b!"ATE0") ∧
      sent e' ≠ none ∧ (∀ x ∈ mid, sent x = none) ∧ repliesSim7x00.ends (some b!"ATE0") b!"OK\r\n" = true ∧
      repliesSim7x00.ends (some b!"ATE0") b!"+CSQ: 1\r\n" = false := by
  decide +kernel

/-- After a command or a block of payload the driver transmits nothing until the modem has answered it. -/
theorem C32_sim800 (p : Platform) (rx tx : List Byte) (sched : List (List Hw))
    (rmem wmem : List Byte) (t : ConnType) (line ip id : List Byte) (hl : line.length = 61) (ops : List Op) :
    let d := exec (Sim800.step p) (Sim800.init (Ser.init rx tx sched) rmem wmem t line ip id) ops
    ∀ pre e mid e' post k, d.trace = pre ++ e :: mid ++ e' :: post → sent e = some k → sent e' ≠ none →
      (∀ x ∈ mid, sent x = none) →
      (∃ l, .line l ∈ mid ∧ repliesSim800.ends k l = true) ∨ .flush ∈ mid ∨ .apiReset ∈ mid := by
  intro d pre e mid e' post k ht he he' hm
  have hi : Sim800.WaitI d := Sim800.exec_stages (Sim800.waitI_sections p) waitInv_calls
    Sim800.waitI_own (Sim800.inv_init rx tx sched rmem wmem t ip id hl)
    ⟨sentOk_append (always_nil _) (new := [.apiReset]) (by simp [sent]), by
      simp [Sim800.init, SimDev.init, SimDev.resetStates, pend, Observer.after]⟩ ops
  exact sentOk_form hi.ok ht he he' hm

/-- In every state, one call of `run()` gives at most one command or block of payload. -/
theorem C32_sim800_run (p : Platform) (d : Sim800.D) (openOk : Bool) :
    ∃ new, (Sim800.run p d openOk).trace = d.trace ++ new ∧
      (new.filter fun e => (sent e).isSome).length ≤ 1 :=
  (Sim800.adds_run p d openOk).le

example :
    let d := exec (Sim800.step Sess.arm) Sess.sim800 (Sess.up800 .tcp)
    let e : Ev := .cmd b!"ATE0" b!"ATE0"
    let e' : Ev := .cmd b!"AT+CIPRXGET=1" b!"AT+CIPRXGET=1"
    let mid : List Ev := [.arg b!"\r\n" b!"\r\n", .line b!"OK\r\n"]
    d.trace = d.trace.take 2 ++ e :: mid ++ e' :: d.trace.drop 6 ∧ sent e = some (some b!"ATE0") ∧
      sent e' ≠ none ∧ (∀ x ∈ mid, sent x = none) ∧ repliesSim800.ends (some b!"ATE0") b!"OK\r\n" = true ∧
      repliesSim800.ends (some b!"ATE0") b!"+CSQ: 1\r\n" = false := by
  decide +kernel

/-- After a command or a block of payload the driver transmits nothing until the modem has answered it. -/
theorem C32_espressif (p : Platform) (rx tx : List Byte) (sched : List (List Hw))
    (rmem wmem : List Byte) (t : ConnType) (line mac : List Byte) (ssid passwd : CPtr)
    (hl : line.length = 61) (ops : List Op) :
    let d := exec (Espressif.step p) (Espressif.init (Ser.init rx tx sched) rmem wmem t line mac ssid passwd) ops
    ∀ pre e mid e' post k, d.trace = pre ++ e :: mid ++ e' :: post → sent e = some k → sent e' ≠ none →
      (∀ x ∈ mid, sent x = none) →
      (∃ l, .line l ∈ mid ∧ repliesEspressif.ends k l = true) ∨ .flush ∈ mid ∨ .apiReset ∈ mid := by
  intro d pre e mid e' post k ht he he' hm
  have hi : Espressif.WaitI d := Espressif.exec_stages (Espressif.waitI_sections p) waitInv_calls
    Espressif.waitI_own (Espressif.inv_init rx tx sched rmem wmem t mac ssid passwd hl)
    ⟨sentOk_append (always_nil _) (new := [.apiReset]) (by simp [sent]), by
      simp [Espressif.init, Espressif.resetStates, pend, Observer.after]⟩ ops
  exact sentOk_form hi.ok ht he he' hm

/-- In every state, one call of `run()` gives at most one command or block of payload. -/
theorem C32_espressif_run (p : Platform) (d : Espressif.D) (openOk : Bool) :
    ∃ new, (Espressif.run p d openOk).trace = d.trace ++ new ∧
      (new.filter fun e => (sent e).isSome).length ≤ 1 :=
  (Espressif.adds_run p d openOk).le

example :
    let d := exec (Espressif.step Sess.arm) Sess.espressif (Sess.upEsp .tcp)
    let e : Ev := .cmd b!"ATE0" b!"ATE0"
    let e' : Ev := .cmd b!"AT+CWMODE=1" b!"AT+CWMODE=1"
    let mid : List Ev := [.arg b!"\r\n" b!"\r\n", .line b!"OK\r\n"]
    d.trace = d.trace.take 2 ++ e :: mid ++ e' :: d.trace.drop 6 ∧ sent e = some (some b!"ATE0") ∧
      sent e' ≠ none ∧ (∀ x ∈ mid, sent x = none) ∧ repliesEspressif.ends (some b!"ATE0") b!"OK\r\n" = true ∧
      repliesEspressif.ends (some b!"ATE0") b!"+CSQ: 1\r\n" = false := by
  decide +kernel

/-- After a command or a block of payload the driver transmits nothing until the modem has answered it. -/
theorem C32_cc1352p7 (p : Platform) (rx tx : List Byte) (sched : List (List Hw))
    (rmem wmem : List Byte) (t : ConnType) (line mac : List Byte) (hl : line.length = 61) (ops : List Op) :
    let d := exec (CC1352P7.step p) (CC1352P7.init (Ser.init rx tx sched) rmem wmem t line mac) ops
    ∀ pre e mid e' post k, d.trace = pre ++ e :: mid ++ e' :: post → sent e = some k → sent e' ≠ none →
      (∀ x ∈ mid, sent x = none) →
      (∃ l, .line l ∈ mid ∧ repliesCC1352P7.ends k l = true) ∨ .flush ∈ mid ∨ .apiReset ∈ mid := by
  intro d pre e mid e' post k ht he he' hm
  have hi : CC1352P7.WaitI d := CC1352P7.exec_stages (CC1352P7.waitI_sections p) waitInv_calls
    CC1352P7.waitI_own (CC1352P7.inv_init rx tx sched rmem wmem t mac hl)
    ⟨sentOk_append (always_nil _) (new := [.apiReset]) (by simp [sent]), by
      simp [CC1352P7.init, CC1352P7.resetStates, pend, Observer.after]⟩ ops
  exact sentOk_form hi.ok ht he he' hm

/-- In every state, one call of `run()` gives at most one command or block of payload. -/
theorem C32_cc1352p7_run (p : Platform) (d : CC1352P7.D) (openOk : Bool) :
    ∃ new, (CC1352P7.run p d openOk).trace = d.trace ++ new ∧
      (new.filter fun e => (sent e).isSome).length ≤ 1 :=
  (CC1352P7.adds_run p d openOk).le

example :
    let d := exec (CC1352P7.step Sess.arm) Sess.cc1352p7 (Sess.upCC .tcp)
    let e : Ev := .cmd b!"ATE0" b!"ATE0"
    let e' : Ev := .cmd b!"AT+CIPSTART" b!"AT+CIPSTART"
    let mid : List Ev := [.arg b!"\r\n" b!"\r\n", .line b!"OK\r\n"]
    d.trace = d.trace.take 2 ++ e :: mid ++ e' :: d.trace.drop 6 ∧ sent e = some (some b!"ATE0") ∧
      sent e' ≠ none ∧ (∀ x ∈ mid, sent x = none) ∧ repliesCC1352P7.ends (some b!"ATE0") b!"OK\r\n" = true ∧
      repliesCC1352P7.ends (some b!"ATE0") b!"+CSQ: 1\r\n" = false := by
  decide +kernel

end Verif.Props.OneCmd
