import Verif.Lemmas.Stages
import Verif.Spec.Trace

/-! Events of the functions that send commands. -/

namespace Verif

open Dev

variable {S R X : Type}

/-- The amount `prepareSending` announces. -/
def Dev.sendAmount (d : Dev S R X) : Nat :=
  amount d.wbuf.avail d.askSpace.serSpace d.askSpace.askSpace.serSpace

theorem Dev.prepareSending_true {d : Dev S R X} {c : Bool} (h : (d.prepareSending c).2 = true) :
    (d.prepareSending c).1.bytesToWrite = d.sendAmount ∧
      (d.prepareSending c).1.wait = some b!">" ∧
      ∃ g1 g2 g3,
      (d.prepareSending c).1.trace = d.trace ++ [.cmd b!"AT+CIPSEND=" g1] ++
        (if c then [.arg b!"0," g2] else []) ++ [.arg (dec5 d.sendAmount) g3] := by
  have key : ∀ (d3 : Dev S R X) (n : Nat), d3.trace = d.trace →
      let d4 := { d3 with bytesToWrite := n }
      let d5 := d4.cmd b!"AT+CIPSEND="
      let d6 := if c then d5.arg b!"0," else d5
      let d7 := d6.arg (dec5 n)
      d7.bytesToWrite = n ∧ ∃ g1 g2 g3, d7.trace = d.trace ++ [.cmd b!"AT+CIPSEND=" g1] ++
        (if c then [.arg b!"0," g2] else []) ++ [.arg (dec5 n) g3] := by
    intro d3 n ht
    cases c with
    | false => exact ⟨rfl, _, [], _, by simp [ht]; exact ⟨rfl, rfl⟩⟩
    | true => exact ⟨rfl, _, _, _, by simp [ht]; exact ⟨rfl, rfl, rfl⟩⟩
  unfold Dev.prepareSending at h ⊢
  by_cases hs : d.serSpace < minSpace
  · rw [if_pos hs] at h; simp at h
  · rw [if_neg hs]
    have k := key (if d.askSpace.wbuf.bytesAvailable > d.askSpace.serSpace - minSpace
        then d.askSpace.askSpace.askSpace else d.askSpace.askSpace) d.sendAmount (by split <;> rfl)
    exact ⟨k.1, rfl, k.2⟩

theorem Dev.prepareSending_trace_false {d : Dev S R X} {c : Bool} (h : (d.prepareSending c).2 = false) :
    (d.prepareSending c).1.trace = d.trace ∧ (d.prepareSending c).1.bytesToWrite = d.bytesToWrite ∧
      (d.prepareSending c).1.wait = d.wait := by
  rw [prepareSending_false h]
  exact ⟨rfl, rfl, rfl⟩

theorem Dev.receive_trace_false {d : Dev S R X} (h : d.receive.2 = false) :
    d.receive.1.trace = d.trace ∧ d.receive.1.rbuf = d.rbuf ∧
      d.receive.1.bytesToRead = d.bytesToRead ∧ d.receive.1.lineRead = d.lineRead := by
  rw [receive_false h]
  exact ⟨rfl, rfl, rfl, rfl⟩

namespace SimDev

theorem sendDnsQuery_true {d : SimDev S R} (h : d.sendDnsQuery.2 = true) :
    ∃ g1 g2 g3, d.sendDnsQuery.1.trace = d.trace ++ [.cmd b!"AT+CDNSGIP=\"" g1] ++
      [.arg (d.host.getD []) g2] ++ [.arg quoteEnd g3] := by
  have key : ∀ (e : SimDev S R), e.trace = d.trace → e.host = d.host →
      ∃ g1 g2 g3, (((e.askSpace.cmd b!"AT+CDNSGIP=\"").arg (e.host.getD [])).arg quoteEnd).trace =
        d.trace ++ [.cmd b!"AT+CDNSGIP=\"" g1] ++ [.arg (d.host.getD []) g2] ++ [.arg quoteEnd g3] :=
    fun e h1 h2 => ⟨_, _, _, by simp [h1, h2]; exact ⟨rfl, rfl, rfl⟩⟩
  unfold sendDnsQuery at h ⊢
  dsimp only at h ⊢
  have h1 : (if d.host = none then { d with ub := true } else d).trace = d.trace := by split <;> rfl
  have h2 : (if d.host = none then { d with ub := true } else d).host = d.host := by split <;> rfl
  generalize (if d.host = none then { d with ub := true } else d) = e at h h1 h2 ⊢
  split
  · rename_i hc; rw [if_pos hc] at h; simp at h
  · exact key e h1 h2

theorem sendDnsQuery_false {d : SimDev S R} (h : d.sendDnsQuery.2 = false) :
    d.sendDnsQuery.1.trace = d.trace := by
  unfold sendDnsQuery at h ⊢
  dsimp only at h ⊢
  have h1 : (if d.host = none then { d with ub := true } else d).trace = d.trace := by split <;> rfl
  generalize (if d.host = none then { d with ub := true } else d) = e at h h1 ⊢
  split
  · exact h1
  · rename_i hc; rw [if_neg hc] at h; simp at h

/-- The amount `sendCiprxget2` asks for. -/
def askAmount (d : SimDev S R) : Nat :=
  requestAmount (d.askAvail.ser.readBufferSize - d.askAvail.serAvail) 8 d.bytesToReceive
    d.rbuf.spaceAvailable d.ext.maxRx

theorem sendCiprxget2_true {d : SimDev S R} (h : d.sendCiprxget2.2 = true) :
    ∃ g1 g2 g3, d.sendCiprxget2.1.trace = d.trace ++ [.cmd b!"AT+CIPRXGET=2,0," g1] ++
      [.arg (dec d.askAmount) g2] ++ [.arg lineEnd g3] := by
  unfold sendCiprxget2 at h ⊢
  dsimp only at h ⊢
  split
  · exact ⟨_, _, _, rfl⟩
  · rename_i hc; rw [if_neg hc] at h; simp at h

theorem sendCiprxget2_false {d : SimDev S R} (h : d.sendCiprxget2.2 = false) :
    d.sendCiprxget2.1 = d.askAvail := by
  unfold sendCiprxget2 at h ⊢
  dsimp only at h ⊢
  split
  · rename_i hc; rw [if_pos hc] at h; simp at h
  · rfl

/-- Commands of identification requests. -/
def idCommands (iccid : List Byte) : List (List Byte) :=
  [b!"AT+CGMI", b!"AT+CGMM", b!"AT+CGSN", b!"AT+CIMI", iccid]

theorem sendIDRequest_true {d : SimDev S R} {c : List Byte} (h : (d.sendIDRequest c).2 = true) :
    ∃ w ∈ idCommands c, ∃ g1 g2, (d.sendIDRequest c).1.trace =
      d.trace ++ [.cmd w g1] ++ [.arg lineEnd g2] := by
  unfold sendIDRequest at h ⊢
  split
  · rename_i h1
    rw [if_pos h1] at h
    dsimp only at h ⊢
    split
    · rename_i w hw
      refine ⟨w, ?_, _, _, rfl⟩
      unfold idCommand at hw
      unfold idCommands
      (repeat' split at hw) <;> simp_all
    · rename_i hw; rw [hw] at h; simp at h
  · rename_i h1; rw [if_neg h1] at h; simp at h

theorem parseIDReply_false {d : SimDev S R} (h : d.parseIDReply.2 = false) : d.parseIDReply.1 = d := by
  have hg : ∀ src, (parseIDReply.go d src).2 = false → (parseIDReply.go d src).1 = d := by
    intro src h
    unfold parseIDReply.go at h ⊢
    dsimp only at h ⊢
    generalize (if d.ext.id.get 2 = IdType.iccid.code then iccidValid src else true) = v at h ⊢
    cases v <;> simp_all
  unfold parseIDReply at h ⊢
  split
  · rfl
  · rename_i h1
    rw [if_neg h1] at h
    split
    · rename_i h2
      rw [if_pos h2] at h
      exact hg _ h
    · rename_i h2
      rw [if_neg h2] at h
      split
      · rfl
      · rename_i h3
        rw [if_neg h3] at h
        exact hg _ h

theorem sendIDRequest_false {d : SimDev S R} {c : List Byte} (h : (d.sendIDRequest c).2 = false) :
    (d.sendIDRequest c).1.trace = d.trace ∧ (d.sendIDRequest c).1.ser = d.ser := by
  unfold sendIDRequest at h ⊢
  split
  · rename_i h1
    rw [if_pos h1] at h
    dsimp only at h ⊢
    split
    · rename_i w hw; rw [hw] at h; simp at h
    · exact ⟨rfl, rfl⟩
  · exact ⟨rfl, rfl⟩

end SimDev

namespace Espressif

/-- The amount `sendCiprcvdata` asks for. -/
def askAmount (d : D) : Nat :=
  SimDev.requestAmount (d.askAvail.ser.readBufferSize - d.askAvail.serAvail) 30 d.bytesToReceive
    d.rbuf.spaceAvailable maxRx

theorem sendCiprcvdata_true {d : D} (h : (sendCiprcvdata d).2 = true) :
    ∃ g1 g2 g3, (sendCiprcvdata d).1.trace = d.trace ++ [.cmd b!"AT+CIPRECVDATA=" g1] ++
      [.arg (dec (askAmount d)) g2] ++ [.arg lineEnd g3] := by
  unfold sendCiprcvdata at h ⊢
  dsimp only at h ⊢
  split
  · exact ⟨_, _, _, rfl⟩
  · rename_i hc; rw [if_neg hc] at h; simp at h

theorem sendCiprcvdata_false {d : D} (h : (sendCiprcvdata d).2 = false) :
    (sendCiprcvdata d).1 = d.askAvail := by
  unfold sendCiprcvdata at h ⊢
  dsimp only at h ⊢
  split
  · rename_i hc; rw [if_pos hc] at h; simp at h
  · rfl

end Espressif

namespace CC1352P7

/-- The amount `sendCiprcvdata` asks for. -/
def askAmount (d : D) : Nat :=
  SimDev.requestAmount (d.askAvail.ser.readBufferSize - d.askAvail.serAvail) 30 d.bytesToReceive
    d.rbuf.spaceAvailable maxRx

theorem sendCiprcvdata_true {d : D} (h : (sendCiprcvdata d).2 = true) :
    ∃ g1 g2 g3, (sendCiprcvdata d).1.trace = d.trace ++ [.cmd b!"AT+CIPRECVDATA=" g1] ++
      [.arg (dec (askAmount d)) g2] ++ [.arg lineEnd g3] := by
  unfold sendCiprcvdata at h ⊢
  dsimp only at h ⊢
  split
  · exact ⟨_, _, _, rfl⟩
  · rename_i hc; rw [if_neg hc] at h; simp at h

theorem sendCiprcvdata_false {d : D} (h : (sendCiprcvdata d).2 = false) :
    (sendCiprcvdata d).1 = d.askAvail := by
  unfold sendCiprcvdata at h ⊢
  dsimp only at h ⊢
  split
  · rename_i hc; rw [if_pos hc] at h; simp at h
  · rfl

end CC1352P7

/-! ## Parsing adds no events -/

theorem Sim7x00.parseWait_trace (d : Sim7x00.D) : (Sim7x00.parseWait d).1.trace = d.trace := by
  unfold Sim7x00.parseWait; (repeat' split) <;> rfl

theorem Sim7x00.parseReply_trace (p : Platform) (d : Sim7x00.D) :
    (Sim7x00.parseReply p d).1.trace = d.trace := by
  unfold Sim7x00.parseReply
  split <;> (try dsimp only) <;> (repeat' split) <;> simp

theorem Sim7x00.checkState_trace (d : Sim7x00.D) : (Sim7x00.checkState d).trace = d.trace := by
  unfold Sim7x00.checkState; split <;> simp

theorem Sim7x00.parseLine_trace (p : Platform) (d : Sim7x00.D) :
    (Sim7x00.parseLine p d).1.trace = d.trace := by
  unfold Sim7x00.parseLine
  dsimp only
  split
  · exact parseWait_trace d
  · split
    · rw [parseReply_trace, parseWait_trace]
    · simp only [checkState_trace, parseReply_trace, parseWait_trace]

theorem Sim800.parseWait_trace (d : Sim800.D) : (Sim800.parseWait d).trace = d.trace := by
  unfold Sim800.parseWait; split <;> rfl

theorem Sim800.parseReply_trace (p : Platform) (d : Sim800.D) :
    (Sim800.parseReply p d).trace = d.trace := by
  unfold Sim800.parseReply
  split <;> (try dsimp only) <;> (repeat' split) <;> simp

theorem Sim800.checkState_trace (d : Sim800.D) : (Sim800.checkState d).trace = d.trace := by
  unfold Sim800.checkState; split <;> simp

theorem Sim800.parseLine_trace (p : Platform) (d : Sim800.D) :
    (Sim800.parseLine p d).1.trace = d.trace := by
  unfold Sim800.parseLine
  split
  · rfl
  · simp only [checkState_trace, parseReply_trace, parseWait_trace]

theorem Espressif.parseWait_trace (d : Espressif.D) :
    (Espressif.parseWait (Espressif.parseSendFail d)).trace = d.trace := by
  unfold Espressif.parseWait Espressif.parseSendFail; (repeat' split) <;> rfl

theorem Espressif.parseReply_trace (p : Platform) (d : Espressif.D) :
    (Espressif.parseReply p d).trace = d.trace := by
  unfold Espressif.parseReply
  split <;> (try dsimp only) <;> (repeat' split) <;> simp

theorem Espressif.checkState_trace (p : Platform) (d : Espressif.D) :
    (Espressif.checkState p d).trace = d.trace := by
  unfold Espressif.checkState; dsimp only; (repeat' split) <;> rfl

theorem Espressif.parseLine_trace (p : Platform) (d : Espressif.D) :
    (Espressif.parseLine p d).1.trace = d.trace := by
  unfold Espressif.parseLine
  split
  · rfl
  · simp only [checkState_trace, parseReply_trace, parseWait_trace]

theorem CC1352P7.parseWait_trace (d : CC1352P7.D) : (CC1352P7.parseWait d).trace = d.trace := by
  unfold CC1352P7.parseWait; split <;> rfl

theorem CC1352P7.parseReply_trace (p : Platform) (d : CC1352P7.D) :
    (CC1352P7.parseReply p d).trace = d.trace := by
  unfold CC1352P7.parseReply
  split <;> (try dsimp only) <;> (repeat' split) <;> simp

theorem CC1352P7.checkState_trace (p : Platform) (d : CC1352P7.D) :
    (CC1352P7.checkState p d).trace = d.trace := by
  unfold CC1352P7.checkState; (repeat' split) <;> rfl

theorem CC1352P7.parseLine_trace (p : Platform) (d : CC1352P7.D) :
    (CC1352P7.parseLine p d).1.trace = d.trace := by
  unfold CC1352P7.parseLine
  split
  · rfl
  · simp only [checkState_trace, parseReply_trace, parseWait_trace]

end Verif
