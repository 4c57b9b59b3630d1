import Verif.Props.Early
import Verif.Props.Receive
import Verif.Lemmas.Net7x00

/-!
# Property C74: the answer to a request for data fits into the receive buffer
-/

namespace Verif.Props.Fits

open Verif Verif.Spec

/-- **C74** (Espressif). Whatever happened before: when a call of `run()` asks for `n` bytes, the whole answer (the header, up to
`n` bytes of data, the line that ends it) fits into the receive buffer even if `run()` is not called again before
everything has arrived: no byte of it is dropped. -/
theorem C74_espressif (p : Platform) (rx tx : List Byte) (rmem wmem : List Byte) (t : ConnType) (line mac : List Byte) (ssid passwd : CPtr)
    (htx : tx ≠ []) (hl : line.length = lineMax + 1) (ops : List Op) (ok : Bool) :
    let d := exec (Espressif.step p) (Espressif.init (Ser.init rx tx []) rmem wmem t line mac ssid passwd) ops
    let e := exec (Espressif.step p) d [.run ok]
    ∀ (n : Nat) (pre : List Ev) (g g1 g2 : List Byte), n < 2 ^ 32 → e.ser.readBufferSize < 2 ^ 64 →
      e.trace = d.trace ++ (pre ++ [.cmd requestWifi g, .arg (dec n) g1, .arg b!"\r\n" g2]) →
      ∀ data : List Byte, data.length ≤ n →
        let answer := b!"+CIPRECVDATA," ++ dec data.length ++ b!":" ++ data ++ b!"\r\nOK\r\n"
        (exec (Espressif.step p) e [lands answer]).ser.accepted = e.ser.accepted ++ answer := by
  intro d e n pre g g1 g2 hn hrx htr data hdata answer
  have hi : ∀ ops, Espressif.Inv (exec (Espressif.step p) (Espressif.init (Ser.init rx tx []) rmem wmem t line mac ssid passwd) ops) := fun ops =>
    exec_inv (step := Espressif.step p) (ok := fun _ => True) (I := Espressif.Inv)
    (fun _ op _ h => Espressif.step_inv p op h) (Espressif.inv_init rx tx [] rmem wmem t mac ssid passwd hl) ops (fun _ _ => trivial)
  have hb : ∀ ops, Ser.Base (exec (Espressif.step p) (Espressif.init (Ser.init rx tx []) rmem wmem t line mac ssid passwd) ops).ser := fun ops =>
    exec_inv (step := Espressif.step p) (ok := fun _ => True) (I := fun d => Ser.Base d.ser)
    (fun _ op _ h => Espressif.step_base p op h) (Ser.base_init rx htx).flush ops (fun _ _ => trivial)
  have he : e = exec (Espressif.step p) (Espressif.init (Ser.init rx tx []) rmem wmem t line mac ssid passwd) (ops ++ [.run ok]) := by
    rw [exec_append]
  obtain ⟨new, h1, h2⟩ := Verif.Props.Receive.C37_espressif p d ok
  have h1' : e.trace = d.trace ++ new := h1
  have hnew : new = pre ++ [.cmd requestWifi g, .arg (dec n) g1, .arg b!"\r\n" g2] := by
    rw [h1'] at htr; exact List.append_cancel_left htr
  rcases h2 with h2 | ⟨pre', m, k, g', g2', a1, _, _, _, a5, a6⟩
  · exact absurd (by rw [hnew]; simp) (h2 g)
  · have hnm : n = m := by
      have q := hnew.symm.trans a1
      have q2 := (List.append_inj' q rfl).2
      simp only [List.cons.injEq, Ev.arg.injEq] at q2
      have q3 : dec n = dec m := q2.2.1.1
      have v1 := dec_val hn
      have v2 := dec_val (n := m) (by omega)
      rw [← v1, ← v2, q3]
    have hroom := (a6 (by rw [(hb ops).sched]; simp) hrx).2
    have hroom' : m + 30 ≤ e.ser.rx.ring.size - e.ser.rx.ring.bytesAvailable := hroom
    obtain ⟨rq, hs, hav⟩ := Dev.exists_still (d := e) (by rw [he]; exact hb _) (by rw [he]; exact (hi _).rx)
    have hrq : e.ser.rx.ring.bytesAvailable = rq.length := hs.q.rx.ring.av
    have hd : (dec data.length).length ≤ 4 := by
      rw [dec_decimals (by omega)]
      exact decimals_length (by omega) (by omega)
    have hlen : answer.length ≤ data.length + 24 := by
      show (b!"+CIPRECVDATA," ++ dec data.length ++ b!":" ++ data ++ b!"\r\nOK\r\n").length ≤ _
      simp only [List.length_append]
      have e1 : (b!"+CIPRECVDATA,").length = 13 := by decide
      have e2 : (b!":").length = 1 := by decide
      have e3 : (b!"\r\nOK\r\n").length = 6 := by decide
      rw [e1, e2, e3]; omega
    have lo : Dev.Low rq.length e.ser.rx.ring.size e.ser := ⟨rq, hs, Nat.le_refl _⟩
    show (e.common (lands answer)).ser.accepted = _
    rw [lo.arrive (by rw [hrq] at hroom'; omega)]
    rfl

/-- **C74** (CC1352P7). Whatever happened before: when a call of `run()` asks for `n` bytes, the whole answer (the header, up to
`n` bytes of data, the line that ends it) fits into the receive buffer even if `run()` is not called again before
everything has arrived: no byte of it is dropped. -/
theorem C74_cc1352p7 (p : Platform) (rx tx : List Byte) (rmem wmem : List Byte) (t : ConnType) (line mac : List Byte)
    (htx : tx ≠ []) (hl : line.length = lineMax + 1) (ops : List Op) (ok : Bool) :
    let d := exec (CC1352P7.step p) (CC1352P7.init (Ser.init rx tx []) rmem wmem t line mac) ops
    let e := exec (CC1352P7.step p) d [.run ok]
    ∀ (n : Nat) (pre : List Ev) (g g1 g2 : List Byte), n < 2 ^ 32 → e.ser.readBufferSize < 2 ^ 64 →
      e.trace = d.trace ++ (pre ++ [.cmd requestWifi g, .arg (dec n) g1, .arg b!"\r\n" g2]) →
      ∀ data : List Byte, data.length ≤ n →
        let answer := b!"+CIPRECVDATA," ++ dec data.length ++ b!"\r\n" ++ data ++ b!"\r\nOK\r\n"
        (exec (CC1352P7.step p) e [lands answer]).ser.accepted = e.ser.accepted ++ answer := by
  intro d e n pre g g1 g2 hn hrx htr data hdata answer
  have hi : ∀ ops, CC1352P7.Inv (exec (CC1352P7.step p) (CC1352P7.init (Ser.init rx tx []) rmem wmem t line mac) ops) := fun ops =>
    exec_inv (step := CC1352P7.step p) (ok := fun _ => True) (I := CC1352P7.Inv)
    (fun _ op _ h => CC1352P7.step_inv p op h) (CC1352P7.inv_init rx tx [] rmem wmem t mac hl) ops (fun _ _ => trivial)
  have hb : ∀ ops, Ser.Base (exec (CC1352P7.step p) (CC1352P7.init (Ser.init rx tx []) rmem wmem t line mac) ops).ser := fun ops =>
    exec_inv (step := CC1352P7.step p) (ok := fun _ => True) (I := fun d => Ser.Base d.ser)
    (fun _ op _ h => CC1352P7.step_base p op h) (Ser.base_init rx htx).flush ops (fun _ _ => trivial)
  have he : e = exec (CC1352P7.step p) (CC1352P7.init (Ser.init rx tx []) rmem wmem t line mac) (ops ++ [.run ok]) := by
    rw [exec_append]
  obtain ⟨new, h1, h2⟩ := Verif.Props.Receive.C37_cc1352p7 p d ok
  have h1' : e.trace = d.trace ++ new := h1
  have hnew : new = pre ++ [.cmd requestWifi g, .arg (dec n) g1, .arg b!"\r\n" g2] := by
    rw [h1'] at htr; exact List.append_cancel_left htr
  rcases h2 with h2 | ⟨pre', m, k, g', g2', a1, _, _, _, a5, a6⟩
  · exact absurd (by rw [hnew]; simp) (h2 g)
  · have hnm : n = m := by
      have q := hnew.symm.trans a1
      have q2 := (List.append_inj' q rfl).2
      simp only [List.cons.injEq, Ev.arg.injEq] at q2
      have q3 : dec n = dec m := q2.2.1.1
      have v1 := dec_val hn
      have v2 := dec_val (n := m) (by omega)
      rw [← v1, ← v2, q3]
    have hroom := (a6 (by rw [(hb ops).sched]; simp) hrx).2
    have hroom' : m + 30 ≤ e.ser.rx.ring.size - e.ser.rx.ring.bytesAvailable := hroom
    obtain ⟨rq, hs, hav⟩ := Dev.exists_still (d := e) (by rw [he]; exact hb _) (by rw [he]; exact (hi _).1.rx)
    have hrq : e.ser.rx.ring.bytesAvailable = rq.length := hs.q.rx.ring.av
    have hd : (dec data.length).length ≤ 4 := by
      rw [dec_decimals (by omega)]
      exact decimals_length (by omega) (by omega)
    have hlen : answer.length ≤ data.length + 25 := by
      show (b!"+CIPRECVDATA," ++ dec data.length ++ b!"\r\n" ++ data ++ b!"\r\nOK\r\n").length ≤ _
      simp only [List.length_append]
      have e1 : (b!"+CIPRECVDATA,").length = 13 := by decide
      have e2 : (b!"\r\n").length = 2 := by decide
      have e3 : (b!"\r\nOK\r\n").length = 6 := by decide
      rw [e1, e2, e3]; omega
    have lo : Dev.Low rq.length e.ser.rx.ring.size e.ser := ⟨rq, hs, Nat.le_refl _⟩
    show (e.common (lands answer)).ser.accepted = _
    rw [lo.arrive (by rw [hrq] at hroom'; omega)]
    rfl

/-- Non-vacuous: 50 bytes are announced, the receive buffer has 80 places, all 50 are asked for. -/
example :
    let d := Early.someEsp (Sess.say b!"+IPD,90\r\n" ++ [.run true])
    let e := exec (Espressif.step ⟨true, true⟩) d [.run true]
    e.trace = d.trace ++ ([] ++ [.cmd requestWifi requestWifi, .arg (dec 50) b!"50", .arg b!"\r\n" b!"\r\n"]) := by decide +kernel

example :
    let d := Early.someCC (Sess.say b!"+IPD,90\r\n" ++ [.run true])
    let e := exec (CC1352P7.step ⟨true, true⟩) d [.run true]
    e.trace = d.trace ++ ([] ++ [.cmd requestWifi requestWifi, .arg (dec 50) b!"50", .arg b!"\r\n" b!"\r\n"]) := by decide +kernel

/-- **C74** (SIM7x00). This expectation is false here: the driver asks for 72 bytes, the receive buffer having 80 places, but the
answer has 22 bytes before the data. If everything arrives before `run()` is called again, bytes of the answer are dropped,
and bytes of the next notification are delivered to the application in their place. -/
theorem C74_sim7x00 :
    let d := Early.some7x00 (Sess.talk b!"+CIPRXGET: 1,0\r\n" ++ Sess.talk b!"+CIPRXGET: 4,0,72\r\n")
    let e := exec (Sim7x00.step ⟨true, true⟩) d (Sess.say b!"OK\r\n" ++ [.run true])
    let answer := b!"+CIPRXGET: 2,0,72,0\r\n" ++ List.replicate 72 65 ++ b!"\r\nOK\r\n"
    e.ser.sent = d.ser.sent ++ b!"AT+CIPRXGET=2,0,72\r\n" ∧
    (exec (Sim7x00.step ⟨true, true⟩) e [lands answer]).ser.accepted ≠ e.ser.accepted ++ answer ∧
    ((exec (Sim7x00.step ⟨true, true⟩) e ([lands answer, .run true, .run true, lands b!"+CIPRXGET: 1,0\r\n", .run true])).read 100).2 =
      List.replicate 59 65 ++ b!"+CIPRXGET: 1," := by decide +kernel

/-- **C74** (SIM800). This expectation is false here: the driver asks for 72 bytes, the receive buffer having 80 places, but the
answer has 22 bytes before the data. If everything arrives before `run()` is called again, bytes of the answer are dropped,
and bytes of the next notification are delivered to the application in their place. -/
theorem C74_sim800 :
    let d := Early.some800 (Sess.talk b!"+CIPRXGET: 1,0\r\n" ++ Sess.talk b!"+CIPRXGET: 4,0,72\r\n")
    let e := exec (Sim800.step ⟨true, true⟩) d (Sess.say b!"OK\r\n" ++ [.run true])
    let answer := b!"+CIPRXGET: 2,0,72,0\r\n" ++ List.replicate 72 65 ++ b!"\r\nOK\r\n"
    e.ser.sent = d.ser.sent ++ b!"AT+CIPRXGET=2,0,72\r\n" ∧
    (exec (Sim800.step ⟨true, true⟩) e [lands answer]).ser.accepted ≠ e.ser.accepted ++ answer ∧
    ((exec (Sim800.step ⟨true, true⟩) e ([lands answer, .run true, .run true, lands b!"+CIPRXGET: 1,0\r\n", .run true])).read 100).2 =
      List.replicate 59 65 ++ b!"+CIPRXGET: 1," := by decide +kernel

end Verif.Props.Fits
