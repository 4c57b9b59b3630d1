import Verif.Lemmas.Net7x00
import Verif.Lemmas.Chat800

/-! The SIM800 driver with an open connection follows the machine. -/

namespace Verif

open Dev Spec

namespace Sim800

variable {p : Platform} {c : Conf} {apn addr : Option (List Byte)} {t0 : List Ev} {T : List (List Byte)} {q : St Snd Rep}
  {d g : D} {n : Nat} {l : List Byte} {r : Peer} {s : Spot} {cs : ConnState}

/-- The machine. -/
def mach (most : Nat) : Mach := ⟨tongue800, true, 8, most⟩

def spotSt (cs : ConnState) : Spot → St Snd Rep
  | .ready => at_ .connected .okReply none cs
  | .prompt => at_ .sendData .okReply (some b!">") cs
  | .confirm => at_ .connected .okReply (some b!"0, SEND OK") cs
  | .query => at_ .sendCiprxget4 .okReply none cs
  | .count => at_ .sendCiprxget2 .ciprxget4 (some b!"OK") cs
  | .counted => at_ .sendCiprxget2 .okReply (some b!"OK") cs
  | .ask => at_ .sendCiprxget2 .okReply none cs
  | .asked _ => at_ .waitReceive .ciprxget2 none cs
  | .taking _ => at_ .receiving .okReply none cs
  | .taken => at_ .receiving .okReply (some b!"OK") cs

/-- The driver does something by itself. -/
def free : Spot → Bool
  | .ready | .query | .ask => true
  | _ => false

def live (cs : ConnState) : Prop := cs = .connected ∨ cs = .transmitting ∨ cs = .receiving

/-- Sizes and settings. -/
def Fix (r : Peer) (n most cap : Nat) (c : Conf) : Prop :=
  r.Ok ∧ c.port = r.port.toNat ∧ c.typ = r.typ ∧ 60 ≤ c.rx ∧ c.rx < 18446744073709551616 ∧ 28 ≤ c.tx ∧ c.tx ≤ 65557 ∧ c.tx ≤ n ∧
    0 < c.rcap ∧ 0 < most ∧ most < 4294967296 ∧ cap < 2147483648

/-- The state of the driver; no block is taken. -/
def In0 (apn : Option (List Byte)) (r : Peer) (most : Nat) (s : Spot) (c : Conf) (T : List (List Byte)) (d : D) : Prop :=
  d.ipConnected = true ∧ d.ext.maxRx = most ∧ ∃ cs, live cs ∧ Chat c apn (some r.addr) [] T (spotSt cs s) d ∧
    (free s = true → d.ser.txFree = c.tx)

def In1 (apn : Option (List Byte)) (r : Peer) (most : Nat) (b : List Byte) (c : Conf) (T : List (List Byte)) (d : D) : Prop :=
  d.ipConnected = true ∧ d.ext.maxRx = most ∧ ∃ cs, live cs ∧
    Take c (SimDev.ChatExt apn (some r.addr)) [] T (at_ .receiving .okReply none cs) b d

def In (apn : Option (List Byte)) (r : Peer) (n most cap : Nat) (s : Spot) (c : Conf) (T : List (List Byte)) (d : D) : Prop :=
  Fix r n most cap c ∧ match s with
    | .taking b => In1 apn r most b c T d
    | s => In0 apn r most s c T d

variable {most cap : Nat}

/-! ### The state machine -/

theorem run_calm' (h : Chat c apn addr t0 T q d) (hs : q.disc = false) : run p d true = proceed d := by
  rw [run_work h]
  unfold work SimDev.fillLineBuffer
  rw [h.calm.fillLine]
  show proceed (flushIfDisconnecting d) = _
  unfold flushIfDisconnecting
  rw [if_neg (fun x => by rw [h.disc, hs] at x; cases x.1)]

/-- What arrives behind the bytes `v` waits, and `run()` goes on with `e`. -/
def Behind (p : Platform) (v : List Byte) (rx : Nat) (x e : D) : Prop :=
  ∀ y, v.length + y.length ≤ rx → run p (x.more y) true = proceed (e.more y)

theorem run_heardEnd (h : Chat c apn addr t0 T q d) {v t : List Byte} {z : Byte} (hv' : c.part ++ v = t ++ [z]) (hv0 : v ≠ [])
    (hn : c.tx ≤ n) (hr : 60 ≤ c.rx) (hlen : t.length + 1 ≤ 60)
    (h1 : nl ∉ t) (h2 : gt ∉ t) (hz : z = nl ∨ z = gt) :
    ∃ g, Chat (c.mid []) apn addr t0 T q g ∧ LineDone g (t ++ [z]) ∧ g.ser.txFree = c.tx ∧ g.ipConnected = d.ipConnected ∧ g.ext = d.ext ∧
      (run p (hearing d n v) true = if (parseLine p g).2 then (parseLine p g).1 else proceed (parseLine p g).1) ∧
      ((parseLine p g).2 = false → Behind p v c.rx (hearing d n v) (parseLine p g).1) := by
  obtain ⟨g, e, g1, g2, g3, g4, g5⟩ := h.heardEnd (r := d.rep) (z := z) hn hv' hv0 hlen hr (SimDev.lineStop d.rep)
    (fun m k x hx hk => by
      unfold SimDev.lineStop
      have e1 : x ≠ nl := fun e => h1 (e ▸ hx)
      have e2 : x ≠ gt := fun e => h2 (e ▸ hx)
      rw [if_neg]; simp [e1, e2]; omega)
    (fun m k => by
      unfold SimDev.lineStop
      rcases hz with hz | hz
      · rw [if_pos (.inl hz)]
      · rw [if_pos (.inr (.inl hz))])
  rw [h.rep] at g1
  refine ⟨g, g1, g2, g3, g4, g5, ?_, fun hp y hy => ?_⟩
  · have : run p (hearing d n v) true = work p (hearing d n v) := by
      unfold run
      rw [if_neg (by simp [h.calm.isOpen]), if_neg (by simp [h.calm.lock]), if_neg (by simp [h.calm.reset])]
    rw [this]
    unfold work SimDev.fillLineBuffer
    rw [show (hearing d n v).rep = d.rep from rfl, e]
    simp
  · have : run p ((hearing d n v).more y) true = work p ((hearing d n v).more y) := by
      unfold run
      rw [if_neg (by show ¬ d.isOpen = false; simp [h.calm.isOpen]), if_neg (by show ¬ d.serialLocked = true; simp [h.calm.lock]),
        if_neg (by show ¬ d.resetPending = true; simp [h.calm.reset])]
    rw [this]
    unfold work SimDev.fillLineBuffer
    have hs := (h.calm.arrived (v := v) hn (by have := congrArg List.length hv'; simp at this; omega)).1.still
    have e' := (more_fillLine (SimDev.lineStop d.rep) hs y hy (by rw [e])).1
    rw [e] at e'
    rw [show ((hearing d n v).more y).rep = d.rep from rfl, e']
    simp only [if_true, more_parseLine, hp, Bool.false_eq_true, if_false]

theorem run_moreEnd (h : Chat c apn addr t0 T q d) {v : List Byte} (hn : c.tx ≤ n) (hr : 60 ≤ c.rx) (hlen : (c.part ++ v).length < 60)
    (h1 : nl ∉ c.part ++ v) (h2 : gt ∉ c.part ++ v) (hs : q.disc = false) :
    ∃ g, Chat (c.mid (c.part ++ v)) apn addr t0 T q g ∧ g.ser.txFree = c.tx ∧ g.ipConnected = d.ipConnected ∧ g.ext = d.ext ∧
      run p (hearing d n v) true = proceed g := by
  obtain ⟨g, e, g1, g3, g4, g5⟩ := h.heardMore hn hlen hr (SimDev.lineStop d.rep)
    (fun m a x b hab _ => by
      have hx : x ∈ c.part ++ v := by rw [hab]; simp
      have e1 : x ≠ nl := fun e => h1 (e ▸ hx)
      have e2 : x ≠ gt := fun e => h2 (e ▸ hx)
      have hk := congrArg List.length hab
      rw [List.length_append (bs := x :: b), List.length_cons] at hk
      have hlm : lineMax = 60 := rfl
      unfold SimDev.lineStop
      rw [if_neg]; simp [e1, e2]; omega)
  refine ⟨g, g1, g3, g4, g5, ?_⟩
  have : run p (hearing d n v) true = work p (hearing d n v) := by
    unfold run
    rw [if_neg (by simp [h.calm.isOpen]), if_neg (by simp [h.calm.lock]), if_neg (by simp [h.calm.reset])]
  rw [this]
  unfold work SimDev.fillLineBuffer
  rw [show (hearing d n v).rep = d.rep from rfl, e]
  show proceed (flushIfDisconnecting g) = _
  unfold flushIfDisconnecting
  rw [if_neg (fun x => by rw [g1.disc, hs] at x; cases x.1)]

/-- `run()` in state connected. -/
theorem act_ready (hF : Fix r n most cap c) (hi : d.ipConnected = true) (hm : d.ext.maxRx = most)
    (h : Chat c apn (some r.addr) [] T (at_ .connected .okReply none cs) d) (hf : d.ser.txFree = c.tx) :
    In0 apn r most ((mach most).ready c).spot ((mach most).ready c).conf (T ++ ((mach most).ready c).says) (act d) := by
  obtain ⟨hk, f1, f2, f3, f4, f5, f6, f7, f8, f9, f10, f11⟩ := hF
  have ea : act d = actConnected d := by unfold act; rw [h.snd]
  rw [ea]
  unfold Mach.ready
  by_cases hw : c.wq ≠ []
  · rw [if_pos hw]
    have hp := List.length_pos_iff.mpr hw
    have hb : d.wbuf.bytesAvailable ≠ 0 := by rw [h.avail]; omega
    have h' := h.bwSet (min c.wq.length (c.tx - 22))
    have hn5 : dec5 (min c.wq.length (c.tx - 22)) = decimals (min c.wq.length (c.tx - 22)) := dec5_decimals (by omega)
    have l1 : (decimals (min c.wq.length (c.tx - 22))).length ≤ 5 := decimals_length (by omega) (by omega)
    have hx : (((mach most).t.send (Mach.chunk c)).length) ≤ ({ d with bytesToWrite := min c.wq.length (c.tx - 22) } : D).ser.txFree := by
      show _ ≤ d.ser.txFree
      rw [hf]
      simp only [mach, tongue800, Mach.chunk, List.length_append]
      simp; omega
    have hch : Mach.chunk c = min c.wq.length (c.tx - 22) := rfl
    unfold actConnected
    rw [if_pos hb, h.prepare hf (by omega)]
    simp only [if_true]
    have e1 : (mach most).t.send (Mach.chunk c) = b!"AT+CIPSEND=" ++ b!"0," ++ decimals (min c.wq.length (c.tx - 22)) ++ b!"\r\n" := by
      simp only [mach, tongue800, hch]
      simp
    refine ⟨hi, hm, .transmitting, .inr (.inl rfl), ?_, fun x => by cases x⟩
    show Chat _ _ _ _ _ (at_ .sendData .okReply (some b!">") .transmitting) _
    rw [e1] at hx ⊢
    rw [hn5]
    saidIn h' h hx ((((Wrote.cmd h'.calm.ser b!"AT+CIPSEND=" (by decide)).arg b!"0," (by decide)).arg _ (decimals_zero _)).arg lineEnd (by decide))
  · rw [if_neg hw]
    have hw : c.wq = [] := by simpa using hw
    have hb : ¬ d.wbuf.bytesAvailable ≠ 0 := by rw [h.avail, hw]; simp
    unfold actConnected
    rw [if_neg hb]
    by_cases hd : c.data = true
    · rw [if_pos hd, if_pos (h.data.trans hd)]
      have h' := h.dataSet false
      refine ⟨hi, hm, .receiving, .inr (.inr rfl), ?_, fun _ => hf⟩
      show Chat _ _ _ _ (T ++ []) (at_ .sendCiprxget4 .okReply none .receiving) _
      rw [List.append_nil]
      movedIn h' h
    · rw [if_neg hd, if_neg (fun x => hd (h.data.symm.trans x))]
      rw [if_pos hi]
      unfold Dev.handleDisconnect
      rw [if_neg (by show ¬ d.disconnectPending = true; rw [h.disc]; simp)]
      refine ⟨hi, hm, .connected, .inl rfl, ?_, fun _ => hf⟩
      show Chat _ _ _ _ (T ++ []) (at_ .connected .okReply none .connected) _
      rw [List.append_nil]
      moved h

/-- The amount of data is asked for. -/
theorem act_query (hF : Fix r n most cap c) (hi : d.ipConnected = true) (hm : d.ext.maxRx = most) (hl : live cs)
    (h : Chat c apn (some r.addr) [] T (at_ .sendCiprxget4 .okReply none cs) d) (hf : d.ser.txFree = c.tx) :
    In0 apn r most .count c (T ++ [(mach most).t.query]) (act d) := by
  obtain ⟨hk, f1, f2, f3, f4, f5, f6, f7, f8, f9, f10, f11⟩ := hF
  have ea : act d = { d.sendCommand b!"AT+CIPRXGET=4,0" with delay := 0, wait := some okStr, snd := .sendCiprxget2, rep := .ciprxget4 } := by
    unfold act; rw [h.snd]
  rw [ea]
  refine ⟨hi, hm, cs, hl, ?_, fun x => by cases x⟩
  have hx : b!"AT+CIPRXGET=4,0\r\n".length ≤ d.ser.txFree := by rw [hf]; exact Nat.le_trans (by decide) f5
  show Chat _ _ _ _ _ (at_ .sendCiprxget2 .ciprxget4 (some b!"OK") cs) _
  said h hx (Wrote.command h.calm.ser _ (by decide))

/-- Data is asked for. -/
theorem act_ask (hF : Fix r n most cap c) (hi : d.ipConnected = true) (hm : d.ext.maxRx = most) (hl : live cs)
    (h : Chat c apn (some r.addr) [] T (at_ .sendCiprxget2 .okReply none cs) d) (hf : d.ser.txFree = c.tx) :
    In0 apn r most ((mach most).ask c).spot ((mach most).ask c).conf (T ++ ((mach most).ask c).says) (act d) := by
  obtain ⟨hk, f1, f2, f3, f4, f5, f6, f7, f8, f9, f10, f11⟩ := hF
  have ea : act d = actCiprxget2 d := by unfold act; rw [h.snd]
  rw [ea]
  unfold Mach.ask
  have hd : ¬ d.disconnectPending = true := by rw [h.disc]; simp
  by_cases h1 : 0 < c.rcv
  · have h1' : d.bytesToReceive > 0 := by rw [h.rcv]; exact h1
    rw [if_pos h1]
    by_cases h2 : c.rq.length < c.rcap
    · have ew : SimDev.requestAmount c.rx 8 d.bytesToReceive (c.rcap - c.rq.length) d.ext.maxRx = (mach most).want c := by
        rw [requestAmount_eq (by omega) f4, hm, h.rcv]; rfl
      have hb : (mach most).want c < 4294967296 := Nat.lt_of_le_of_lt (Nat.min_le_right _ _) f10
      have e1 : d.sendCiprxget2 = (((d.cmdN b!"AT+CIPRXGET=2,0,").arg (decimals ((mach most).want c))).arg lineEnd, true) := by
        unfold SimDev.sendCiprxget2
        rw [h.calm.askAvail]
        dsimp only
        rw [h.calm.serAvail, h.space, show d.ser.readBufferSize = c.rx from h.calm.ser.rxs, Nat.sub_zero, h.calm.askAvail,
          if_pos ⟨by omega, by omega⟩, ew, dec_decimals hb]
      have e : actCiprxget2 d = { (((d.cmdN b!"AT+CIPRXGET=2,0,").arg (decimals ((mach most).want c))).arg lineEnd) with
          snd := .waitReceive, rep := .ciprxget2 } := by
        unfold actCiprxget2
        rw [if_neg hd, if_pos h1', e1]; rfl
      rw [if_pos h2, e]
      have l1 : (decimals ((mach most).want c)).length ≤ 10 := decimals_length (by omega) (by omega)
      have hx : (b!"AT+CIPRXGET=2,0," ++ decimals ((mach most).want c) ++ b!"\r\n").length ≤ d.ser.txFree := by
        rw [hf]; simp; omega
      refine ⟨hi, hm, cs, hl, ?_, fun x => by cases x⟩
      show Chat _ _ _ _ _ (at_ .waitReceive .ciprxget2 none cs) _
      said h hx (((Wrote.cmdN h.calm.ser b!"AT+CIPRXGET=2,0,").arg _ (decimals_zero _)).arg lineEnd (by decide))
    · have e1 : d.sendCiprxget2 = (d, false) := by
        unfold SimDev.sendCiprxget2
        rw [h.calm.askAvail]
        dsimp only
        rw [h.calm.serAvail, h.space, if_neg (fun x => by omega)]
      have e : actCiprxget2 d = d := by
        unfold actCiprxget2
        rw [if_neg hd, if_pos h1', e1]; rfl
      rw [if_neg h2, e]
      refine ⟨hi, hm, cs, hl, ?_, fun _ => hf⟩
      show Chat _ _ _ _ (T ++ []) _ _
      rw [List.append_nil]
      exact h
  · have e : actCiprxget2 d = { d with snd := .connected } := by
      unfold actCiprxget2
      rw [if_neg hd, if_neg (by rw [h.rcv]; exact h1), if_pos hi]
    rw [if_neg h1, e]
    refine ⟨hi, hm, cs, hl, ?_, fun _ => hf⟩
    show Chat _ _ _ _ (T ++ []) (at_ .connected .okReply none cs) _
    rw [List.append_nil]
    moved h

/-- The payload. -/
theorem act_pay (hi : d.ipConnected = true) (hm : d.ext.maxRx = most) (hl : live cs)
    (h : Chat c apn (some r.addr) [] T (at_ .sendData .okReply none cs) d) (hf : d.ser.txFree = c.tx) (hb : c.bw ≤ c.wq.length)
    (ht : c.bw ≤ c.tx) : In0 apn r most .confirm (Mach.paid c) (T ++ [c.wq.take c.bw]) (act d) := by
  have ea : act d = { d.sendData with wait := some b!"0, SEND OK", snd := .connected } := by unfold act; rw [h.snd]
  rw [ea]
  have h' := h.pay hb (by omega)
  refine ⟨hi, hm, cs, hl, ?_, fun x => by cases x⟩
  show Chat _ _ _ _ _ (at_ .connected .okReply (some b!"0, SEND OK") cs) _
  movedIn h' h

/-- The block is complete. -/
theorem act_taken (hi : d.ipConnected = true) (hm : d.ext.maxRx = most) (hl : live cs)
    (h : Chat c apn (some r.addr) [] T (at_ .receiving .okReply none cs) d) (hf : d.ser.txFree = c.tx) (hd : c.rd = 0) :
    In0 apn r most ((mach most).taken c).spot ((mach most).taken c).conf T (act d) := by
  have ea : act d = actReceiving d := by unfold act; rw [h.snd]
  rw [ea]
  have h0 : ¬ d.bytesToRead > 0 := by rw [h.rd, hd]; omega
  unfold Mach.taken
  by_cases h1 : 0 < c.rcv
  · have e : actReceiving d = { d with snd := .sendCiprxget2 } := by
      unfold actReceiving
      rw [if_neg h0, if_pos (by rw [h.rcv]; exact h1)]
    rw [if_pos h1, e]
    refine ⟨hi, hm, cs, hl, ?_, fun _ => hf⟩
    show Chat _ _ _ _ _ (at_ .sendCiprxget2 .okReply none cs) _
    moved h
  · have e : actReceiving d = { d with delay := 10, snd := .sendCiprxget4 } := by
      unfold actReceiving
      rw [if_neg h0, if_neg (by rw [h.rcv]; exact h1)]
    rw [if_neg h1, if_pos (show (mach most).polls = true from rfl), e]
    refine ⟨hi, hm, cs, hl, ?_, fun _ => hf⟩
    show Chat _ _ _ _ _ (at_ .sendCiprxget4 .okReply none cs) _
    moved h

/-- The driver goes on. -/
theorem pro (hF : Fix r n most cap c) (hs : ∀ b, s ≠ .taking b) (h : In0 apn r most s c T d) :
    In0 apn r most ((mach most).run s c).spot ((mach most).run s c).conf (T ++ ((mach most).run s c).says) (proceed d) := by
  obtain ⟨hi, hm, cs, hl, hc, hf⟩ := h
  have f5 := hF.2.2.2.2.2.1
  cases s with
  | ready => rw [proceed_act hc rfl rfl (by rw [hf rfl]; omega)]; exact act_ready hF hi hm hc (hf rfl)
  | query => rw [proceed_act hc rfl rfl (by rw [hf rfl]; omega)]; exact act_query hF hi hm hl hc (hf rfl)
  | ask => rw [proceed_act hc rfl rfl (by rw [hf rfl]; omega)]; exact act_ask hF hi hm hl hc (hf rfl)
  | taking b => exact absurd rfl (hs b)
  | prompt => rw [proceed_wait hc (.inl (by simp [spotSt]))]; exact ⟨hi, hm, cs, hl, by simpa [Mach.run] using hc, by simp [Mach.run, free]⟩
  | confirm => rw [proceed_wait hc (.inl (by simp [spotSt]))]; exact ⟨hi, hm, cs, hl, by simpa [Mach.run] using hc, by simp [Mach.run, free]⟩
  | count => rw [proceed_wait hc (.inl (by simp [spotSt]))]; exact ⟨hi, hm, cs, hl, by simpa [Mach.run] using hc, by simp [Mach.run, free]⟩
  | counted => rw [proceed_wait hc (.inl (by simp [spotSt]))]; exact ⟨hi, hm, cs, hl, by simpa [Mach.run] using hc, by simp [Mach.run, free]⟩
  | asked k => rw [proceed_wait hc (.inr (by simp [spotSt]))]; exact ⟨hi, hm, cs, hl, by simpa [Mach.run] using hc, by simp [Mach.run, free]⟩
  | taken => rw [proceed_wait hc (.inl (by simp [spotSt]))]; exact ⟨hi, hm, cs, hl, by simpa [Mach.run] using hc, by simp [Mach.run, free]⟩

/-! ### Lines -/

/-- Lines that are not about the current command. -/
def Aside (l : List Byte) : Prop :=
  ¬ b!"OK" <+: l ∧ Clear errors800 l ∧ ¬ b!"+CIPRXGET: 4,0," <+: l ∧ ¬ b!"+CIPRXGET: 2,0," <+: l ∧ ¬ b!">" <+: l ∧ ¬ b!"0, SEND OK" <+: l

theorem parse_aside (hl : LineDone g l) (ha : Aside l) (hw : g.wait = none ∨ g.wait = some b!"OK" ∨ g.wait = some b!">" ∨ g.wait = some b!"0, SEND OK")
    (hr : g.rep = .okReply ∨ g.rep = .ciprxget4 ∨ g.rep = .ciprxget2) : parseLine p g = (checkState g, false) := by
  obtain ⟨a1, a2, a3, a4, a5, a6⟩ := ha
  refine parseLine_eq (a := g) (isError_clear hl a2) ?_ ?_
  · rcases hw with hw | hw | hw | hw
    · exact parseWait_none hw
    · exact parseWait_clear hl hw (by decide) a1
    · exact parseWait_clear hl hw (by decide) a5
    · exact parseWait_clear hl hw (by decide) a6
  · rcases hr with hr | hr | hr
    · exact parseReply_ok hr
    · unfold parseReply SimDev.parseCiprxget4
      rw [hr]
      simp only [hl.has_false (by decide) a3, Bool.false_eq_true, if_false]
    · unfold parseReply SimDev.parseCiprxget2
      rw [hr]
      simp only [hl.has_false (by decide) a4, Bool.false_eq_true, if_false]

theorem spot_wait (cs : ConnState) (s : Spot) :
    ((spotSt cs s).wait = none ∨ (spotSt cs s).wait = some b!"OK" ∨ (spotSt cs s).wait = some b!">" ∨ (spotSt cs s).wait = some b!"0, SEND OK") ∧
    ((spotSt cs s).rep = .okReply ∨ (spotSt cs s).rep = .ciprxget4 ∨ (spotSt cs s).rep = .ciprxget2) ∧
    Snd.connected.idx ≤ (spotSt cs s).snd.idx ∧ (spotSt cs s).disc = false := by
  cases s <;> simp [spotSt, Snd.idx]

/-- A line that is not about the current command. -/
theorem hear_aside (hF : Fix r n most cap c) (h : In0 apn r most s c T d) (hs : ∀ b, s ≠ .taking b) {v : List Byte} (hv0 : v ≠ [])
    (hl : IsLine (c.part ++ v)) (ha : Aside (c.part ++ v)) :
    ∃ g, In0 apn r most s (c.mid []) T g ∧ LineDone g (c.part ++ v) ∧ Snd.connected.idx ≤ g.snd.idx ∧ run p (hearing d n v) true = proceed (checkState g) ∧
      Behind p v c.rx (hearing d n v) (checkState g) := by
  obtain ⟨hk, f1, f2, f3, f4, f5, f6, f7, f8, f9, f10, f11⟩ := hF
  obtain ⟨hi, hm, cs, hv, hc, hf⟩ := h
  obtain ⟨t, ht, t1, t2, t3⟩ := hl.text
  have hlen := hl.len
  rw [ht, List.length_append, List.length_singleton] at hlen
  obtain ⟨g, g1, g2, g3, g4, g5, e, hB⟩ := run_heardEnd (p := p) hc ht hv0 f7 f3 hlen t1 t2 (.inl rfl)
  obtain ⟨w1, w2, w3, w4⟩ := spot_wait cs s
  rw [← ht] at g2
  have ep := parse_aside (p := p) g2 ha (by rw [g1.wait]; exact w1) (by rw [g1.rep]; exact w2)
  rw [ep] at e hB
  exact ⟨g, ⟨g4.trans hi, by rw [g5]; exact hm, cs, hv, g1, fun _ => g3⟩, g2, by rw [g1.snd]; exact w3, e, hB rfl⟩

/-- The awaited line `OK`, or the prompt. -/
theorem hear_good (hF : Fix r n most cap c) {q : St Snd Rep} {v t : List Byte} {z : Byte} (hv' : c.part ++ v = t ++ [z]) (hv0 : v ≠ [])
    (hi : d.ipConnected = true) (hm : d.ext.maxRx = most)
    (hc : Chat c apn (some r.addr) [] T q d) {w : List Byte} (hw : q.wait = some w) (hr : q.rep = .okReply) (hq : q.ask = false) (h0 : (0 : Byte) ∉ w)
    (hlen : t.length + 1 ≤ 60) (h1 : nl ∉ t) (h2 : gt ∉ t) (hz : z = nl ∨ z = gt) (hp : w <+: t ++ [z])
    (ha : Clear [b!"+CIPRXGET: 1,0", b!"0, CLOSED"] (t ++ [z])) (he : Clear errors800 (t ++ [z])) :
    ∃ g, g.ipConnected = true ∧ g.ext.maxRx = most ∧ Chat (c.mid []) apn (some r.addr) [] T { q with wait := none } g ∧ g.ser.txFree = c.tx ∧
      run p (hearing d n v) true = proceed g ∧ proceed g = act g ∧ Behind p v c.rx (hearing d n v) g := by
  obtain ⟨hk, f1, f2, f3, f4, f5, f6, f7, f8, f9, f10, f11⟩ := hF
  obtain ⟨g, g1, g2, g3, g4, g5, e, hB⟩ := run_heardEnd (p := p) hc hv' hv0 f7 f3 hlen h1 h2 hz
  have hg2 : Chat (c.mid []) apn (some r.addr) [] T { q with wait := none } ({ g with wait := none } : D) :=
    (g1.set ({ g with wait := none } : D) rfl rfl rfl g1.calm.lineRead).at (by
      show (⟨g.snd, g.rep, none, g.cs, g.disconnectPending, g.connectPending, decide (g.rssi = int16Max)⟩ : St _ _) = _
      simp [g1.snd, g1.cs, g1.disc, g1.conn, g1.rep, g1.ask])
  have ep : parseLine p g = ({ g with wait := none }, false) := by
    rw [parseLine_eq (isError_clear g2 he) (parseWait_good g2 (g1.wait.trans hw) h0 hp) (parseReply_ok (g1.rep.trans hr)),
    checkState_clear (d := { g with wait := none }) (l := t ++ [z]) ⟨g2.text, g2.zero, g2.fill⟩ ha]
  rw [ep] at e hB
  exact ⟨{ g with wait := none }, g4.trans hi, by show g.ext.maxRx = _; rw [g5]; exact hm, hg2, g3, e,
    proceed_act hg2 rfl hr (by show 20 ≤ g.ser.txFree; omega) hq, hB rfl⟩

theorem isLine_nums {pre : List Byte} {n : Nat} {rest : List Byte} (h1 : nl ∉ pre) (h2 : gt ∉ pre) (h3 : (0 : Byte) ∉ pre)
    (hr : nl ∉ rest) (hr2 : gt ∉ rest) (hr3 : (0 : Byte) ∉ rest) (hlen : pre.length + (decimals n).length + rest.length + 1 ≤ 60) :
    nl ∉ pre ++ decimals n ++ rest ∧ gt ∉ pre ++ decimals n ++ rest ∧ (pre ++ decimals n ++ rest).length + 1 ≤ 60 := by
  have d1 : nl ∉ decimals n := fun h => by have := decimals_digits n _ h; simp [isDigit, nl] at this
  have d2 : gt ∉ decimals n := fun h => by have := decimals_digits n _ h; simp [isDigit, gt] at this
  refine ⟨?_, ?_, ?_⟩
  · simp [h1, d1, hr]
  · simp [h2, d2, hr2]
  · simp; omega

/-- The modem tells the amount of data. -/
theorem hear_count (hF : Fix r n most cap c) {k : Nat} (hk : k ≤ cap) (h0 : c.rcv = 0) {v : List Byte} (hv0 : v ≠ []) (hv' : tongue800.count k = c.part ++ v)
    (h : In0 apn r most .count c T d) :
    In0 apn r most .counted { c.mid [] with rcv := k } T (run p (hearing d n v) true) ∧
      ∃ e', Behind p v c.rx (hearing d n v) e' ∧ (e'.wait ≠ none ∨ e'.rep ≠ .okReply) ∧ run p (hearing d n v) true = e' := by
  obtain ⟨hk', f1, f2, f3, f4, f5, f6, f7, f8, f9, f10, f11⟩ := hF
  obtain ⟨hi, hm, cs, hv, hc, hf⟩ := h
  have l1 : (decimals k).length ≤ 10 := decimals_length (by omega) (by omega)
  have el : tongue800.count k = b!"+CIPRXGET: 4,0," ++ decimals k ++ b!"\r" ++ [nl] := by simp [tongue800, nl]
  obtain ⟨i1, i2, i3⟩ := isLine_nums (pre := b!"+CIPRXGET: 4,0,") (n := k) (rest := b!"\r") (by decide) (by decide) (by decide) (by decide)
    (by decide) (by decide) (by simp; omega)
  rw [el] at hv'
  obtain ⟨g, g1, g2, g3, g4, g5, e, hB⟩ := run_heardEnd (p := p) hc hv'.symm hv0 f7 f3 i3 i1 i2 (.inl rfl)
  rw [e]
  have hpre : b!"+CIPRXGET: 4,0," <+: b!"+CIPRXGET: 4,0," ++ decimals k ++ b!"\r" ++ [nl] :=
    ⟨decimals k ++ b!"\r" ++ [nl], by simp⟩
  have hst : strtol p.long64 (g.line.drop 15) = k :=
    g2.strtol p.long64 b!"+CIPRXGET: 4,0," b!"\r\n" k (by simp [nl]) (by omega) (by decide)
  have hrep : parseReply p g = { g with bytesToReceive := k, rep := .okReply } := by
    unfold parseReply SimDev.parseCiprxget4
    rw [g1.rep]
    simp only [spotSt, g2.has_true (by decide) hpre, if_true, hst, toInt_small (show k < 2147483648 by omega)]
    rw [addSize_small (by rw [g1.rcv, h0]; omega), g1.rcv, h0, Nat.zero_add]
  have h1 : Chat { c.mid [] with rcv := k } apn (some r.addr) [] T (spotSt cs .counted) ({ g with bytesToReceive := k, rep := .okReply } : D) := by
    have h' := g1.rcvOnly k
    refine Talk.setAt h' _ ?_ ?_ ?_ ?_ ?_
    · rfl
    · rfl
    · rfl
    · exact g1.calm.lineRead
    · simp [Dev.st, g1.snd, g1.cs, g1.disc, g1.conn, g1.wait, g1.ask, spotSt]
  have ep : parseLine p g = ({ g with bytesToReceive := k, rep := .okReply }, false) := by
    rw [parseLine_eq (isError_clear g2 (clear_of hpre (by decide))) (parseWait_clear g2 g1.wait (by decide) (not_prefix_of hpre (by decide) (by decide))) hrep,
    checkState_clear (d := { g with bytesToReceive := k, rep := .okReply }) ⟨g2.text, g2.zero, g2.fill⟩ (by
      intro a ha
      simp only [List.mem_cons, List.not_mem_nil, or_false] at ha
      rcases ha with rfl | rfl
      · exact not_prefix_of hpre (by decide) (by decide)
      · exact not_prefix_of hpre (by decide) (by decide))]
  rw [ep] at hB ⊢
  simp only [Bool.false_eq_true, if_false]
  rw [proceed_wait h1 (.inl (by simp [spotSt]))]
  exact ⟨⟨g4.trans hi, by show g.ext.maxRx = _; rw [g5]; exact hm, cs, hv, h1, fun x => by cases x⟩, _, hB rfl,
    .inl (by rw [show ({ g with bytesToReceive := k, rep := .okReply } : D).wait = _ from h1.wait]; simp [spotSt]), rfl⟩

/-! ### A block of data -/

theorem proceed_take {b : List Byte} (ht : 20 ≤ c.tx) (h : Take c (SimDev.ChatExt apn addr) t0 T (at_ .receiving .okReply none cs) b d) :
    proceed d = actReceiving d := by
  obtain ⟨s, h1⟩ := h.talk
  have hsp : d.serSpace = c.tx := by
    unfold Dev.serSpace; rw [h.ser.spaceAvailable]; exact h.free
  have hask : d.askSpace = d := by
    unfold Dev.askSpace; rw [h.ser.spaceAvailable]
  have hw : d.wait = none := h1.wait
  have hr : d.rep = .okReply := h1.rep
  have hsnd : d.snd = .receiving := h1.snd
  have hrs : d.rssi ≠ int16Max := fun x => by rw [h1.ask] at x; simp at x
  have hid : d.ext.id.get 1 = 0 ∨ d.ext.id.get 0 ≠ 0 := h1.ext.id
  unfold proceed
  rw [hw, hr, if_neg (by simp), hsp, if_neg (by omega), hask]
  unfold sendNext
  rw [if_neg (fun x => hrs x.1)]
  have e : d.sendIDRequest iccidCommand = (d, false) := by
    unfold SimDev.sendIDRequest
    rw [if_neg (fun x => hid.elim x.1 fun y => y x.2.1)]
  rw [e]
  show act d = _
  unfold act
  rw [hsnd]

theorem run_take {b : List Byte} (h : Take c (SimDev.ChatExt apn addr) t0 T (at_ .receiving .okReply none cs) b d) :
    run p d true = proceed d := by
  obtain ⟨s, h1⟩ := h.talk
  have a1 : d.isOpen = true := h1.calm.isOpen
  have a2 : d.serialLocked = false := h1.calm.lock
  have a3 : d.resetPending = false := h1.calm.reset
  have a4 : d.disconnectPending = false := h1.disc
  have e : run p d true = work p d := by
    unfold run
    rw [a1, a2, a3]; rfl
  have ef : d.fillLine (SimDev.lineStop d.rep) = (d, false) := by
    unfold Dev.fillLine
    rw [if_neg (by rw [h.lineRead]; simp)]
  rw [e]
  unfold work SimDev.fillLineBuffer
  rw [ef]
  show proceed (flushIfDisconnecting d) = _
  unfold flushIfDisconnecting
  rw [if_neg (fun x => by rw [a4] at x; cases x.1)]

/-- A part of the block is there. -/
theorem take_wait {b : List Byte} (ht : 20 ≤ c.tx) (h : Take c (SimDev.ChatExt apn addr) t0 T (at_ .receiving .okReply none cs) b d)
    (hb : b.length < c.rd) : proceed d = d := by
  obtain ⟨s, h1⟩ := h.talk
  have hd : d.bytesToRead = c.rd := h1.rd
  rw [proceed_take ht h]
  unfold actReceiving
  rw [if_pos (by rw [hd]; omega), h.wait hb]; rfl

theorem complete (h : Chat c apn addr t0 T (at_ .receiving .okReply none cs) d) :
    Chat c apn addr t0 T (at_ .receiving .okReply (some b!"OK") cs) ({ d with rep := .okReply, wait := some okStr } : D) := by
  moved h

/-- Bytes arrive. -/
theorem hear_bytes (hF : Fix r n most cap c) {b : List Byte} (h : In1 apn r most b c T d) (hb : b.length + l.length ≤ c.rd)
    (h0 : 0 < c.rd) (h1 : c.rq.length + c.rd ≤ c.rcap) (h2 : c.rd ≤ c.rx) :
    In apn r n most cap (Mach.gets c b l).spot (Mach.gets c b l).conf T (run p (hearing d n l) true) := by
  have hF' := hF
  obtain ⟨hk', f1, f2, f3, f4, f5, f6, f7, f8, f9, f10, f11⟩ := hF
  obtain ⟨hi, hm, cs, hv, hc⟩ := h
  have hh := hc.hearing f7 l (by omega)
  rw [run_take hh]
  unfold Mach.gets
  by_cases he : (b ++ l).length = c.rd
  · rw [if_pos he]
    obtain ⟨a1, a2, a3, a4⟩ := hh.all he h1
    have hd : (hearing d n l).bytesToRead = c.rd := by obtain ⟨s, x⟩ := hh.talk; exact x.rd
    have e : proceed (hearing d n l) = { (hearing d n l).receive.1 with rep := .okReply, wait := some okStr } := by
      rw [proceed_take (by omega) hh]
      unfold actReceiving
      rw [if_pos (by rw [hd]; exact h0)]
      dsimp only
      rw [if_pos a1]
    have em := proceed_maxRx (hearing d n l)
    rw [e] at em ⊢
    exact ⟨hF', a4.trans hi, em.trans hm, cs, hv, complete a2, fun x => by cases x⟩
  · rw [if_neg he]
    rw [take_wait (by omega) hh (by rw [List.length_append] at he ⊢; omega)]
    exact ⟨hF', hi, hm, cs, hv, hh⟩

/-- The modem says how many bytes it gives. -/
theorem hear_header (hF : Fix r n most cap c) {j k : Nat} (hj : 0 < j) (hjr : j ≤ c.rcv) (hd : c.rd = 0) (hjk : j ≤ k) (hk : k ≤ cap)
    (hrc : c.rcv < 18446744073709551616) {v : List Byte} (hv0 : v ≠ [])
    (hv' : tongue800.header j (k - j) = c.part ++ v) (h : In0 apn r most (.asked j) c T d) :
    In1 apn r most [] { c.mid [] with rcv := c.rcv - j, rd := j } T (run p (hearing d n v) true) ∧
      Behind p v c.rx (hearing d n v) (run p (hearing d n v) true) := by
  obtain ⟨hk', f1, f2, f3, f4, f5, f6, f7, f8, f9, f10, f11⟩ := hF
  obtain ⟨hi, hm, cs, hv, hc, hf⟩ := h
  have l1 : (decimals j).length ≤ 10 := decimals_length (by omega) (by omega)
  have l2 : (decimals (k - j)).length ≤ 10 := decimals_length (by omega) (by omega)
  have el : tongue800.header j (k - j) = b!"+CIPRXGET: 2,0," ++ decimals j ++ (b!"," ++ decimals (k - j) ++ b!"\r") ++ [nl] := by
    simp [tongue800, nl]
  have z1 : nl ∉ decimals (k - j) := fun h => by have := decimals_digits _ _ h; simp [isDigit, nl] at this
  have z2 : gt ∉ decimals (k - j) := fun h => by have := decimals_digits _ _ h; simp [isDigit, gt] at this
  have z3 := decimals_zero (k - j)
  obtain ⟨i1, i2, i3⟩ := isLine_nums (pre := b!"+CIPRXGET: 2,0,") (n := j) (rest := b!"," ++ decimals (k - j) ++ b!"\r") (by decide) (by decide)
    (by decide) (by simp [z1]; decide) (by simp [z2]; decide) (by simp [z3]) (by simp; omega)
  rw [el] at hv'
  obtain ⟨g, g1, g2, g3, g4, g5, e, hB⟩ := run_heardEnd (p := p) hc hv'.symm hv0 f7 f3 i3 i1 i2 (.inl rfl)
  rw [e]
  have hpre : b!"+CIPRXGET: 2,0," <+: b!"+CIPRXGET: 2,0," ++ decimals j ++ (b!"," ++ decimals (k - j) ++ b!"\r") ++ [nl] :=
    ⟨decimals j ++ (b!"," ++ decimals (k - j) ++ b!"\r") ++ [nl], by simp⟩
  have hst : strtol p.long64 (g.line.drop 15) = j :=
    g2.strtol p.long64 b!"+CIPRXGET: 2,0," (b!"," ++ decimals (k - j) ++ b!"\r\n") j (by simp [nl]) (by omega) (by simp [isDigit])
  have hrep : parseReply p g =
      { g with bytesToReceive := c.rcv - j, bytesToRead := j, lineRead := false, rep := .okReply, snd := .receiving } := by
    unfold parseReply SimDev.parseCiprxget2
    rw [g1.rep]
    simp only [spotSt, g2.has_true (by decide) hpre, if_true, hst, toInt_small (show j < 2147483648 by omega)]
    rw [addSize_small (by rw [g1.rd, hd]; omega), subSize_small (by rw [g1.rcv]; exact hjr) (by rw [g1.rcv]; exact hrc), g1.rcv, g1.rd, hd,
      Nat.zero_add]
  have h1 : Take { c.mid [] with rcv := c.rcv - j, rd := j } (SimDev.ChatExt apn (some r.addr)) [] T (at_ .receiving .okReply none cs) []
      ({ g with bytesToReceive := c.rcv - j, bytesToRead := j, lineRead := false, rep := .okReply, snd := .receiving } : D) := by
    have h' := g1.rdSet (c.rcv - j) j
    have h2 : Chat { c.mid [] with rcv := c.rcv - j, rd := j } apn (some r.addr) [] T (at_ .receiving .okReply none cs)
        ({ g with bytesToReceive := c.rcv - j, bytesToRead := j, rep := .okReply, snd := .receiving } : D) := by
      refine Talk.setAt h' _ ?_ ?_ ?_ ?_ ?_
      · rfl
      · rfl
      · rfl
      · exact g1.calm.lineRead
      · simp [Dev.st, g1.cs, g1.disc, g1.conn, g1.wait, g1.ask, spotSt]
    exact Take.start h2 g3
  have ep : parseLine p g = ({ g with bytesToReceive := c.rcv - j, bytesToRead := j, lineRead := false, rep := .okReply, snd := .receiving }, false) := by
    rw [parseLine_eq (isError_clear g2 (clear_of hpre (by decide))) (parseWait_none g1.wait) hrep, checkState_clear
      (d := { g with bytesToReceive := c.rcv - j, bytesToRead := j, lineRead := false, rep := .okReply, snd := .receiving })
      ⟨g2.text, g2.zero, g2.fill⟩ (by
      intro a ha
      simp only [List.mem_cons, List.not_mem_nil, or_false] at ha
      rcases ha with rfl | rfl
      · exact not_prefix_of hpre (by decide) (by decide)
      · exact not_prefix_of hpre (by decide) (by decide))]
  rw [ep] at hB ⊢
  simp only [Bool.false_eq_true, if_false]
  rw [take_wait (by show 20 ≤ c.tx; omega) h1 hj]
  exact ⟨⟨g4.trans hi, by show g.ext.maxRx = _; rw [g5]; exact hm, cs, hv, h1⟩, hB rfl⟩

/-! ### The driver follows the machine -/

theorem prefix_short {a b l : List Byte} (h : ¬ a <+: l) (hb : a <+: b) : ¬ b <+: l := fun x => h (hb.trans x)

theorem not_gt (hl : IsLine l) : ¬ b!">" <+: l := by
  obtain ⟨t, rfl, t1, t2, t3⟩ := hl.text
  rintro ⟨x, hx⟩
  cases t with
  | nil =>
    simp only [List.cons_append, List.nil_append, List.cons.injEq, nl] at hx
    exact absurd hx.1 (by decide)
  | cons y t =>
    simp only [List.cons_append, List.nil_append, List.cons.injEq] at hx
    exact t2 (by rw [← hx.1]; exact List.mem_cons_self)

theorem aside_of (hl : IsLine l) (h : Clear meaning800 l) : Aside l ∧ Clear [b!"+CIPRXGET: 1,0", b!"0, CLOSED"] l := by
  have h1 : ¬ b!"+CIPRXGET: " <+: l := h _ (by simp [meaning800])
  refine ⟨⟨h _ (by simp [meaning800]), fun x hx => h x (by simp [meaning800, hx]), prefix_short h1 (by decide), prefix_short h1 (by decide), not_gt hl,
    h _ (by simp [meaning800])⟩, ?_⟩
  intro a ha
  simp only [List.mem_cons, List.not_mem_nil, or_false] at ha
  rcases ha with rfl | rfl
  · exact prefix_short h1 (by decide)
  · exact h _ (by simp [meaning800])

theorem exec_hear0 (d : D) (l : List Byte) : exec (step p) d (hear n l 0) = run p (hearing d n l) true :=
  exec_hear step_irq d l 0

theorem In.zero (hF : Fix r n most cap c) (hs : ∀ b, s ≠ .taking b) (h : In0 apn r most s c T d) : In apn r n most cap s c T d := by
  cases s <;> first | exact ⟨hF, h⟩ | exact absurd rfl (hs _)

theorem In.get0 (hs : ∀ b, s ≠ .taking b) (h : In apn r n most cap s c T d) : In0 apn r most s c T d := by
  cases s <;> first | exact h.2 | exact absurd rfl (hs _)

theorem not_taking_of {M : Mach} {ph : Phase} (h : Meet M s c ph) (hb : ph.busy = false) : ∀ b, s ≠ .taking b := by
  rintro b rfl
  revert h hb
  cases ph <;> simp [Meet, Phase.busy]

theorem run_not_taking (hs : ∀ b, s ≠ .taking b) : ∀ b, ((mach most).run s c).spot ≠ .taking b := by
  intro b
  cases s <;> simp only [Mach.run, Mach.ready, Mach.ask] <;> first | exact absurd rfl (hs _) | (repeat' split) <;> simp | simp

theorem run_fix (hF : Fix r n most cap c) : Fix r n most cap ((mach most).run s c).conf := by
  cases s <;> simp only [Mach.run, Mach.ready, Mach.ask] <;> first | (repeat' split) <;> exact hF | exact hF

theorem In.pro (hF : Fix r n most cap c) (hs : ∀ b, s ≠ .taking b) (h : In0 apn r most s c T d) :
    In apn r n most cap ((mach most).run s c).spot ((mach most).run s c).conf (T ++ ((mach most).run s c).says) (proceed d) :=
  In.zero (run_fix hF) (run_not_taking hs) (Sim800.pro hF hs h)

theorem ready_same (c : Conf) : (mach most).ready c = (mach most).run .ready c := rfl
theorem ask_same (c : Conf) : (mach most).ask c = (mach most).run .ask c := rfl

theorem good (hF : Fix r n most cap c) : (mach most).Good c := by
  obtain ⟨hk, f1, f2, f3, f4, f5, f6, f7, f8, f9, f10, f11⟩ := hF
  refine ⟨by simp [mach], fun m hm => ?_, fun m k hm => ?_, fun m k hm => ?_, by show 8 < c.rx; omega, by omega, f9, f8, fun k => ?_, by simp [mach, tongue800], fun _ k => ?_,
    fun j k => ?_⟩
  · simp [Modem.listen, hm]
  · have h1 : tongue800.ask k ≠ tongue800.query := fun h => by
      have := congrArg (List.take 13) h
      simp [tongue800] at this
    have h2 : readNumber 16 (tongue800.ask k) = k := readNumber_eq b!"AT+CIPRXGET=2,0," b!"\r\n" k (by decide)
    show Modem.listen tongue800 m (tongue800.ask k) = _
    unfold Modem.listen
    rw [hm]
    simp only [h1, if_false, show tongue800.askAt = 16 from rfl, h2, if_true]
  · have h1 : tongue800.send k ≠ tongue800.query := fun h => by
      have := congrArg (List.take 7) h
      simp [tongue800] at this
    have h3 : ∀ j, tongue800.send k ≠ tongue800.ask j := fun j h => by
      have := congrArg (List.take 7) h
      simp [tongue800] at this
    have h2 : readNumber 13 (tongue800.send k) = k := by
      exact readNumber_eq b!"AT+CIPSEND=0," b!"\r\n" k (by simp [isDigit])
    show Modem.listen tongue800 m (tongue800.send k) = _
    unfold Modem.listen
    rw [hm]
    simp only [h1, h3, if_false, show tongue800.sendAt = 13 from rfl, h2, if_true]
  · simp [mach, tongue800]
  · simp [mach, tongue800]
  · simp [mach, tongue800]

/-- All texts of the modem end with their only end of line or prompt. -/
theorem worded (hF : Fix r n most cap c) (h : Telling (mach most) cap meaning800 s l) : Worded l := by
  obtain ⟨hk', f1, f2, f3, f4, f5, f6, f7, f8, f9, f10, f11⟩ := hF
  cases h with
  | noise h1 _ => exact h1.worded
  | announce h1 => exact ⟨b!"+CIPRXGET: 1,0\r", nl, rfl, by decide, by decide, .inl rfl, by decide⟩
  | prompt => exact ⟨[], gt, rfl, by decide, by decide, .inr rfl, by decide⟩
  | confirm => exact ⟨b!"0, SEND OK\r", nl, rfl, by decide, by decide, .inl rfl, by decide⟩
  | done => exact ⟨b!"OK\r", nl, rfl, by decide, by decide, .inl rfl, by decide⟩
  | @count k _ h1 =>
    have l1 : (decimals k).length ≤ 10 := decimals_length (by omega) (by omega)
    obtain ⟨i1, i2, i3⟩ := isLine_nums (pre := b!"+CIPRXGET: 4,0,") (n := k) (rest := b!"\r") (by decide) (by decide) (by decide) (by decide)
      (by decide) (by decide) (by simp; omega)
    exact ⟨_, nl, by simp [mach, tongue800, nl], i1, i2, .inl rfl, i3⟩
  | @header j k _ h1 =>
    have l1 : (decimals j).length ≤ 10 := decimals_length (by omega) (by omega)
    have l2 : (decimals k).length ≤ 10 := decimals_length (by omega) (by omega)
    have z1 : nl ∉ decimals k := fun h => by have := decimals_digits _ _ h; simp [isDigit, nl] at this
    have z2 : gt ∉ decimals k := fun h => by have := decimals_digits _ _ h; simp [isDigit, gt] at this
    have z3 := decimals_zero k
    obtain ⟨i1, i2, i3⟩ := isLine_nums (pre := b!"+CIPRXGET: 2,0,") (n := j) (rest := b!"," ++ decimals k ++ b!"\r") (by decide) (by decide)
      (by decide) (by simp [z1]; decide) (by simp [z2]; decide) (by simp [z3]) (by simp; omega)
    exact ⟨_, nl, by simp [mach, tongue800, nl], i1, i2, .inl rfl, i3⟩

theorem follows (p : Platform) (apn : Option (List Byte)) (r : Peer) (n most cap : Nat) :
    Follows (mach most) ⟨tongue800, n, cap, meaning800⟩ (step p) (In apn r n most cap) where
  tongue := rfl
  good h := good h.1
  seen := by
    intro s c T d h
    obtain ⟨hF, h⟩ := h
    cases s with
    | taking b =>
      obtain ⟨hi, hm, cs, hl, hc⟩ := h
      obtain ⟨x, hc⟩ := hc.talk
      have h := Talk.seen hc hl
      exact ⟨h.utter, h.whole, h.took, h.gave, h.conn, h.wq, h.rq, h.rd⟩
    | _ =>
      obtain ⟨hi, hm, cs, hl, hc, hf⟩ := h
      exact Talk.seen hc hl
  run := by
    intro s c T d ph h hm
    show In apn r n most cap _ _ _ (run p d true)
    by_cases hs : ∀ b, s ≠ .taking b
    · obtain ⟨hi, hx, cs, hl, hc, hf⟩ := In.get0 hs h
      rw [run_calm' hc (spot_wait cs s).2.2.2]
      exact In.pro h.1 hs ⟨hi, hx, cs, hl, hc, hf⟩
    · cases s with
      | taking b =>
        obtain ⟨hF, hi, hx, cs, hl, hc⟩ := h
        have hb : b.length < c.rd := by
          revert hm
          cases ph <;> simp only [Meet] <;> first | exact False.elim | skip
          rintro ⟨h1, h2, -⟩
          have := List.length_pos_iff.mpr h1
          omega
        rw [run_take hc, take_wait (by have := hF.2.2.2.2.2.1; omega) hc hb]
        exact ⟨hF, hi, hx, cs, hl, by show Take _ _ _ (T ++ []) _ _ _; rw [List.append_nil]; exact hc⟩
      | _ => exact absurd (by simp) hs
  more := by
    intro s c T d m a v x m' h hf ha hs hx0
    obtain ⟨h1, h2⟩ := hf.says ha hs
    obtain ⟨k1, k2, k3⟩ := (worded h.1 h1).front hx0
    obtain ⟨hi, hx, cs, hl, hc, hf'⟩ := In.get0 h2 h
    obtain ⟨g, g1, g3, g4, g5, e⟩ := run_moreEnd (p := p) hc h.1.2.2.2.2.2.2.2.1 h.1.2.2.2.1 k3 k1 k2 (spot_wait cs s).2.2.2
    rw [exec_hear0, e]
    exact In.pro (c := c.mid (c.part ++ v)) h.1 h2 ⟨g4.trans hi, by rw [g5]; exact hx, cs, hl, g1, fun _ => g3⟩
  noise := by
    intro s c T d ph v h hm hb hv0 hl hx
    have hs := not_taking_of hm hb
    obtain ⟨h1, h2⟩ := aside_of hl hx
    obtain ⟨g, g1, g2, g3, e, -⟩ := hear_aside (p := p) h.1 (In.get0 hs h) hs hv0 hl h1
    show In apn r n most cap _ _ _ (exec (step p) d (hear n v 0))
    rw [exec_hear0, e, checkState_clear g2 h2]
    exact In.pro (c := c.mid []) h.1 hs g1
  tell := by
    intro s c T d ph v k h hm hb hk hv0 hv'
    have hs := not_taking_of hm hb
    have hv' : b!"+CIPRXGET: 1,0\r\n" = c.part ++ v := hv'
    have hl : IsLine (c.part ++ v) := hv' ▸ ⟨by decide, b!"+CIPRXGET: 1,0\r", rfl, by decide, by decide, by decide⟩
    have ha : Aside (c.part ++ v) := hv' ▸ (by unfold Aside Spec.Clear; decide)
    obtain ⟨g, g1, g2, g3, e, -⟩ := hear_aside (p := p) h.1 (In.get0 hs h) hs hv0 hl ha
    show In apn r n most cap _ _ _ (exec (step p) d (hear n v 0))
    have ec : checkState g = { g with dataPending := true } := by
      unfold checkState SimDev.checkConnectionState
      rw [if_pos g3, if_pos (g2.has_true (by decide) (hv' ▸ (by decide)))]
    rw [exec_hear0, e, ec]
    obtain ⟨hi, hx, cs, hv, hc, hf⟩ := g1
    exact In.pro (c := (mach most).told (c.mid []) k) h.1 hs ⟨hi, hx, cs, hv, hc.dataSet true, hf⟩
  prompt := by
    intro c T d ph v h hm hv0 hv'
    obtain ⟨hF, hi, hx, cs, hl, hc, hf⟩ := h
    obtain ⟨g, g1, g2, g3, g4, e1, e2, -⟩ := hear_good (p := p) hF (v := v) (t := []) (z := gt) hv'.symm hv0 hi hx hc rfl rfl rfl (by decide) (by decide) (by decide) (by decide) (.inr rfl)
      (by decide) (by unfold Spec.Clear; decide) (by unfold Spec.Clear; decide)
    show In apn r n most cap _ _ _ (exec (step p) d (hear n v 0))
    have hb : c.bw ≤ c.wq.length ∧ c.bw ≤ c.tx - 22 := by
      revert hm
      cases ph <;> simp only [Meet] <;> first | exact False.elim | skip
      rintro ⟨rfl, h1, h2, h3⟩
      exact ⟨h2, h3⟩
    rw [exec_hear0]
    rw [e1, e2]
    exact ⟨hF, act_pay g1 g2 hl g3 g4 hb.1 (by show c.bw ≤ c.tx; omega)⟩
  confirm := by
    intro c T d v h hv0 hv'
    obtain ⟨hF, hi, hx, cs, hl, hc, hf⟩ := h
    obtain ⟨g, g1, g2, g3, g4, e1, e2, -⟩ := hear_good (p := p) hF (v := v) (t := b!"0, SEND OK\r") (z := nl) hv'.symm hv0 hi hx hc rfl rfl rfl (by decide) (by decide) (by decide) (by decide) (.inl rfl)
      (by decide) (by unfold Spec.Clear; decide) (by unfold Spec.Clear; decide)
    show In apn r n most cap _ _ _ (exec (step p) d (hear n v 0))
    rw [exec_hear0, e1, ready_same]
    exact In.pro (c := c.mid []) hF (by simp) ⟨g1, g2, cs, hl, g3, fun _ => g4⟩
  count := by
    intro c T d v k _ h h0 hk hv0 hv'
    rw [exec_hear0]
    exact ⟨h.1, (hear_count h.1 hk h0 hv0 hv' h.2).1⟩
  counted := by
    intro c T d v _ h hv0 hv'
    obtain ⟨hF, hi, hx, cs, hl, hc, hf⟩ := h
    obtain ⟨g, g1, g2, g3, g4, e1, e2, -⟩ := hear_good (p := p) hF (v := v) (t := b!"OK\r") (z := nl) hv'.symm hv0 hi hx hc rfl rfl rfl (by decide) (by decide) (by decide) (by decide) (.inl rfl)
      (by decide) (by unfold Spec.Clear; decide) (by unfold Spec.Clear; decide)
    rw [exec_hear0, e1, ask_same]
    exact In.pro (c := c.mid []) hF (by simp) ⟨g1, g2, cs, hl, g3, fun _ => g4⟩
  header := by
    intro c T d j k ph v h hm hd hjk hrc hk hv0 hv'
    have hb : 0 < j ∧ j ≤ c.rcv := by
      revert hm
      cases ph <;> simp only [Meet] <;> first | exact False.elim | skip
      rintro ⟨rfl, h1, h2, -⟩
      exact ⟨h1, h2⟩
    rw [exec_hear0]
    exact ⟨h.1, (hear_header h.1 hb.1 hb.2 hd hjk hk (by have := h.1.2.2.2.2.2.2.2.2.2.2.2; dsimp only at hk; omega) hv0 hv' h.2).1⟩
  gets := by
    intro c T d b l ph h hm hb
    have : 0 < c.rd ∧ c.rq.length + c.rd ≤ c.rcap ∧ c.rd ≤ c.rx := by
      revert hm
      cases ph <;> simp only [Meet] <;> first | exact False.elim | skip
      rintro ⟨h1, h2, h3, h4⟩
      have := List.length_pos_iff.mpr h1
      exact ⟨by omega, h3, h4⟩
    rw [exec_hear0]
    exact hear_bytes h.1 h.2 hb this.1 this.2.1 this.2.2
  taken := by
    intro c T d v h hd hv0 hv'
    obtain ⟨hF, hi, hx, cs, hl, hc, hf⟩ := h
    obtain ⟨g, g1, g2, g3, g4, e1, e2, -⟩ := hear_good (p := p) hF (v := v) (t := b!"OK\r") (z := nl) hv'.symm hv0 hi hx hc rfl rfl rfl (by decide) (by decide) (by decide) (by decide) (.inl rfl)
      (by decide) (by unfold Spec.Clear; decide) (by unfold Spec.Clear; decide)
    rw [exec_hear0, e1, e2]
    refine In.zero (by exact hF) ?_ (act_taken g1 g2 hl g3 g4 hd)
    intro b
    simp only [Mach.taken]
    repeat' split
    all_goals simp
  write := by
    intro s c T d bs h
    show ∃ b, In _ _ _ _ _ _ _ _ (d.common (.write bs))
    have hmax : (d.common (.write bs)).ext.maxRx = d.ext.maxRx := step_maxRx p d (.write bs)
    by_cases hs : ∀ b, s ≠ .taking b
    · obtain ⟨hi, hx, cs, hl, hc, hf⟩ := In.get0 hs h
      obtain ⟨h1, h2, h3⟩ := hc.write bs
      by_cases hq : (spotSt cs s).cs = .connected
      · rw [if_pos hq] at h1
        exact ⟨_, In.zero (by exact h.1) hs ⟨h3.trans hi, hmax.trans hx, cs, hl, h1, fun x => by rw [h2]; exact hf x⟩⟩
      · rw [if_neg hq] at h1
        refine ⟨[], In.zero (by exact h.1) hs ⟨h3.trans hi, hmax.trans hx, cs, hl, ?_, fun x => by rw [h2]; exact hf x⟩⟩
        rw [List.append_nil, List.append_nil]; exact h1
    · cases s with
      | taking b =>
        obtain ⟨hF, hi, hx, cs, hl, hc⟩ := h
        obtain ⟨b', h1, h2⟩ := hc.write bs
        exact ⟨b', hF, h2.trans hi, hmax.trans hx, cs, hl, h1⟩
      | _ => exact absurd (by simp) hs
  read := by
    intro s c T d k h
    show In _ _ _ _ _ _ _ _ (d.common (.read k))
    have hmax : (d.common (.read k)).ext.maxRx = d.ext.maxRx := step_maxRx p d (.read k)
    by_cases hs : ∀ b, s ≠ .taking b
    · obtain ⟨hi, hx, cs, hl, hc, hf⟩ := In.get0 hs h
      obtain ⟨h1, h2, h3⟩ := hc.read k
      exact In.zero (by exact h.1) hs ⟨h3.trans hi, hmax.trans hx, cs, hl, h1, fun x => by rw [h2]; exact hf x⟩
    · cases s with
      | taking b =>
        obtain ⟨hF, hi, hx, cs, hl, hc⟩ := h
        exact ⟨hF, hi, hmax.trans hx, cs, hl, hc.read k⟩
      | _ => exact absurd (by simp) hs

/-- The connection was just opened. -/
theorem Up.joined {a : List Byte} (hF : Fix r n most cap c) (hm : d.ext.maxRx = most) (h : Up c (some a) (some r.addr) [] T d)
    (h1 : c.wq = []) (h2 : c.rq = []) (h3 : c.data = false) (h4 : c.rcv = 0) (h5 : c.rd = 0) (h6 : c.took = []) (h7 : c.gave = []) (h8 : c.part = []) :
    Joined (mach most) ⟨tongue800, n, cap, meaning800⟩ (In (some a) r n most cap) ⟨d, Modem.fresh, none⟩ := by
  refine ⟨.ready, c, T, ⟨hF, h.2.1, hm, .connected, .inl rfl, h.1, fun _ => h.2.2⟩, ⟨trivial, ?_, ?_, ?_, ?_, fun _ _ => h5, ?_⟩, h8⟩
  · rw [h1, h6]; rfl
  · rw [h2, h7]; rfl
  · exact Nat.zero_le _
  · rw [h4]; exact Nat.zero_le _
  · unfold Fresh
    rw [if_pos (show (mach most).polls = true from rfl)]
    exact ⟨fun _ => h4, fun _ x => absurd rfl x⟩

/-- One more `run()` when everything is over. -/
theorem In.up {a : List Byte} (p : Platform) (h : In (some a) r n most cap .ready c T d) (hI : c.Idle) :
    Up c (some a) (some r.addr) [] T (step p d (.run true)) := by
  obtain ⟨hF, hi, hm, cs, hl, hc, hf⟩ := h
  show Up _ _ _ _ _ (run p d true)
  have hf := hf rfl
  rw [run_calm' hc rfl, proceed_act hc rfl rfl (by rw [hf]; have := hF.2.2.2.2.2.1; omega)]
  have := act_stay hI hc hi
  exact ⟨this.1, this.2.1, by rw [this.2.2]; exact hf⟩

end Sim800
end Verif
