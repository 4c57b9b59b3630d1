import Verif.Lemmas.Iccid
import Verif.Spec.Sessions

/-!
# Property C41: the ICCID reported by the cellular drivers

The history is cut at the last identification request, which asks for an ICCID.
-/

namespace Verif.Props.Iccid

open Spec Props.Parse

/-- C41, SIM7x00: the string reported after an ICCID request is the text of a line that arrived after the
request and carries a valid ICCID, whatever else happens. -/
theorem C41_sim7x00 (p : Platform) (rx tx : List Byte) (sched : List (List Hw)) (rmem wmem : List Byte)
    (t : ConnType) (line ip id : List Byte) (hl : line.length = lineMax + 1) (hid : id.length = idMax)
    (before after : List Op) (ho : ∀ t, Op.requestID t ∉ after) (s : List Byte) :
    let d0 := Sim7x00.init (Ser.init rx tx sched) rmem wmem t line ip id
    let d1 := exec (Sim7x00.step p) d0 before
    let d2 := exec (Sim7x00.step p) d0 (before ++ .requestID .iccid :: after)
    SimDev.getIDString d2 = some s →
      ∃ new l, d2.trace = d1.trace ++ new ∧ .line l ∈ new ∧ ValidIccid (idText l) ∧
        s = cstr (idStored l) := by
  intro d0 d1 d2 hs
  have hv : Sim7x00.Inv d0 := Sim7x00.inv_init rx tx sched rmem wmem t ip id hl
  have hlen : IdLen (S := Sim7x00.Snd) (R := Sim7x00.Rep) d0 := by
    simp [IdLen, d0, Sim7x00.init, SimDev.init, SimDev.resetStates, Mem.store, hid]
  have h1 := Sim7x00.idLen_exec p hv hlen before
  have e : d2 = exec (Sim7x00.step p) (SimDev.requestIDString d1 .iccid) after := by
    show exec _ _ _ = _
    rw [exec_append]; rfl
  have h2 := Sim7x00.asked_exec p d1.trace (d := SimDev.requestIDString d1 .iccid)
    (Sim7x00.step_inv p (.requestID .iccid) (Sim7x00.inv_exec p hv before)) (.start d1 h1) after ho
  rw [← e] at h2
  exact h2.result hs

/-- C41, SIM800: the same holds in histories without a request for the signal strength. -/
theorem C41_sim800 (p : Platform) (rx tx : List Byte) (sched : List (List Hw)) (rmem wmem : List Byte)
    (t : ConnType) (line ip id : List Byte) (hl : line.length = lineMax + 1) (hid : id.length = idMax)
    (before after : List Op) (ho : ∀ t, Op.requestID t ∉ after)
    (hb : Op.requestRSSI ∉ before) (ha : Op.requestRSSI ∉ after) (s : List Byte) :
    let d0 := Sim800.init (Ser.init rx tx sched) rmem wmem t line ip id
    let d1 := exec (Sim800.step p) d0 before
    let d2 := exec (Sim800.step p) d0 (before ++ .requestID .iccid :: after)
    SimDev.getIDString d2 = some s →
      ∃ new l, d2.trace = d1.trace ++ new ∧ .line l ∈ new ∧ ValidIccid (idText l) ∧
        s = cstr (idStored l) := by
  intro d0 d1 d2 hs
  have hv : Sim800.Inv d0 := Sim800.inv_init rx tx sched rmem wmem t ip id hl
  have hlen : Sim800.LenI d0 := by
    refine ⟨?_, ?_, ?_⟩ <;>
    simp [IdLen, d0, Sim800.init, SimDev.init, SimDev.resetStates, Mem.store, hid, int16Max]
  have h1 := Sim800.len_exec p hv hlen before hb
  have e : d2 = exec (Sim800.step p) (SimDev.requestIDString d1 .iccid) after := by
    show exec _ _ _ = _
    rw [exec_append]; rfl
  have h2 := Sim800.asked_exec p d1.trace (d := SimDev.requestIDString d1 .iccid)
    (Sim800.step_inv p (.requestID .iccid) (Sim800.inv_exec p hv before)) ⟨.start d1 h1.1, h1.2⟩ after
    ho ha
  rw [← e] at h2
  exact h2.1.result hs

open Sess

/-- The ICCID is asked for and the modem answers. -/
def answered : List Op :=
  [.run true] ++ talk b!"89490200001632477314\r\n" ++ talk b!"OK\r\n"

/-- The premises are met: the SIM7x00 driver reports the ICCID, between other lines and while the
application asks for the signal strength, too. -/
example : SimDev.getIDString (exec (Sim7x00.step arm) sim7x00
      ([.run true] ++ .requestID .iccid :: (answered ++ [.requestRSSI, .run true] ++ talk b!"RING\r\n" ++
        talk b!"+CSQ: 20,0\r\n" ++ talk b!"OK\r\n"))) = some b!"89490200001632477314" := by
  decide +kernel

example : SimDev.getIDString (exec (Sim800.step arm) sim800 ([.run true] ++ .requestID .iccid :: answered)) =
    some b!"89490200001632477314" := by decide +kernel

/-- C41 is violated by the SIM800 driver: while it waits for the signal strength, any line that does not
start with `+`, `AT` or a carriage return replaces the ICCID that was already reported. Here the modem
announces a call. -/
theorem C41_sim800_replaced : ∃ (before after : List Op),
    (∀ t, Op.requestID t ∉ after) ∧
    SimDev.getIDString (exec (Sim800.step arm) sim800 (before ++ .requestID .iccid :: answered)) =
      some b!"89490200001632477314" ∧
    SimDev.getIDString (exec (Sim800.step arm) sim800
      (before ++ .requestID .iccid :: (answered ++ after))) = some b!"RING" :=
  ⟨[.run true], [.requestRSSI, .run true] ++ talk b!"RING\r\n" ++ talk b!"+CSQ: 20,0\r\n" ++
      talk b!"OK\r\n" ++ talk b!"+CSQ: 20,0\r\n" ++ talk b!"OK\r\n",
    by intro t; cases t <;> decide, by decide +kernel, by decide +kernel⟩

end Verif.Props.Iccid
