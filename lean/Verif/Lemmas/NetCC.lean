import Verif.Lemmas.Net800
import Verif.Lemmas.EarlyWifi
import Verif.Lemmas.ChatCC

/-! The CC1352P7 driver with an open connection follows the machine. -/

namespace Verif

open Dev Spec

namespace CC1352P7

variable {p : Platform} {c : Conf} {t0 : List Ev} {T : List (List Byte)} {q : St Snd Rep}
  {d g : D} {n : Nat} {l : List Byte} {s : Spot} {cs : ConnState}

/-- The machine. -/
def mach : Mach := ⟨tongueCC, false, 30, maxRx⟩

def spotSt (cs : ConnState) : Spot → St Snd Rep
  | .prompt => at_ .sendDataState .okReply (some b!">") cs
  | .confirm => at_ .connected .okReply (some b!"OK") cs
  | .ask => at_ .sendCiprecvdata .okReply none cs
  | .asked _ => at_ .waitReceive .parseStateCiprecvdata none cs
  | .taking _ => at_ .receiving .okReply none cs
  | .taken => at_ .receiving .okReply (some b!"OK") cs
  | _ => at_ .connected .okReply none cs

/-- The driver does something by itself. -/
def free : Spot → Bool
  | .ready | .ask => true
  | _ => false

def live (cs : ConnState) : Prop := cs = .connected ∨ cs = .transmitting ∨ cs = .receiving

/-- Sizes and settings. -/
def Fix (n cap : Nat) (c : Conf) : Prop :=
  60 ≤ c.rx ∧ c.rx < 18446744073709551616 ∧ 24 ≤ c.tx ∧ c.tx ≤ 65557 ∧ c.tx ≤ n ∧ 0 < c.rcap ∧ cap < 2147483648

/-- The state of the driver; no block is taken. -/
def In0 (p : Platform) (s : Spot) (c : Conf) (T : List (List Byte)) (d : D) : Prop :=
  d.ipConnected = true ∧ ∃ cs, live cs ∧ Chat p c [] T (spotSt cs s) d ∧
    (free s = true → d.ser.txFree = c.tx)

def In1 (p : Platform) (b : List Byte) (c : Conf) (T : List (List Byte)) (d : D) : Prop :=
  d.ipConnected = true ∧ ∃ cs, live cs ∧
    Take c (ChatExt p) [] T (at_ .receiving .okReply none cs) b d

def In (p : Platform) (n cap : Nat) (s : Spot) (c : Conf) (T : List (List Byte)) (d : D) : Prop :=
  Fix n cap c ∧ match s with
    | .taking b => In1 p b c T d
    | s => In0 p s c T d

variable {cap : Nat}

/-! ### The state machine -/

theorem run_calm' (h : Chat p c t0 T q d) (hs : q.disc = false) : run p d true = proceed p d := by
  rw [run_work h]
  unfold work fillLineBuffer
  rw [h.calm.fillLine]
  show proceed p (flushIfDisconnecting d) = _
  unfold flushIfDisconnecting
  rw [if_neg (fun x => by rw [h.disc, hs] at x; cases x.1)]

/-- What arrives behind the bytes `v` waits, and `run()` goes on with `e`. -/
def Behind (p : Platform) (v : List Byte) (rx : Nat) (x e : D) : Prop :=
  ∀ y, v.length + y.length ≤ rx → run p (x.more y) true = proceed p (e.more y)

theorem run_heardEnd (h : Chat p c t0 T q d) {v t : List Byte} {z : Byte} (hv' : c.part ++ v = t ++ [z]) (hv0 : v ≠ [])
    (hn : c.tx ≤ n) (hr : 60 ≤ c.rx) (hlen : t.length + 1 ≤ 60)
    (h1 : nl ∉ t) (h2 : gt ∉ t) (hz : z = nl ∨ z = gt) :
    ∃ g, Chat p (c.mid []) t0 T q g ∧ LineDone g (t ++ [z]) ∧ g.ser.txFree = c.tx ∧ g.ipConnected = d.ipConnected ∧
      (run p (hearing d n v) true = if (parseLine p g).2 then (parseLine p g).1 else proceed p (parseLine p g).1) ∧
      ((parseLine p g).2 = false → Behind p v c.rx (hearing d n v) (parseLine p g).1) := by
  obtain ⟨g, e, g1, g2, g3, g4, g5⟩ := h.heardEnd (r := d.rep) (z := z) hn hv' hv0 hlen hr (lineStop d.rep)
    (fun m k x hx hk => by
      unfold lineStop
      have e1 : x ≠ nl := fun e => h1 (e ▸ hx)
      have e2 : x ≠ gt := fun e => h2 (e ▸ hx)
      rw [if_neg]; simp [e1, e2]; omega)
    (fun m k => by
      unfold lineStop
      rcases hz with hz | hz
      · rw [if_pos (.inl hz)]
      · rw [if_pos (.inr (.inl hz))])
  rw [h.rep] at g1
  refine ⟨g, g1, g2, g3, g4, ?_, fun hp y hy => ?_⟩
  · have : run p (hearing d n v) true = work p (hearing d n v) := by
      unfold run
      rw [if_neg (by simp [h.calm.isOpen]), if_neg (by simp [h.calm.reset])]
    rw [this]
    unfold work fillLineBuffer
    rw [show (hearing d n v).rep = d.rep from rfl, e]
    simp
  · have : run p ((hearing d n v).more y) true = work p ((hearing d n v).more y) := by
      unfold run
      rw [if_neg (by show ¬ d.isOpen = false; simp [h.calm.isOpen]), if_neg (by show ¬ d.resetPending = true; simp [h.calm.reset])]
    rw [this]
    unfold work fillLineBuffer
    have hs := (h.calm.arrived (v := v) hn (by have := congrArg List.length hv'; simp at this; omega)).1.still
    have e' := (more_fillLine (lineStop d.rep) hs y hy (by rw [e])).1
    rw [e] at e'
    rw [show ((hearing d n v).more y).rep = d.rep from rfl, e']
    simp only [if_true, more_parseLine, hp, Bool.false_eq_true, if_false]

theorem run_moreEnd (h : Chat p c t0 T q d) {v : List Byte} (hn : c.tx ≤ n) (hr : 60 ≤ c.rx) (hlen : (c.part ++ v).length < 60)
    (h1 : nl ∉ c.part ++ v) (h2 : gt ∉ c.part ++ v) (hs : q.disc = false) :
    ∃ g, Chat p (c.mid (c.part ++ v)) t0 T q g ∧ g.ser.txFree = c.tx ∧ g.ipConnected = d.ipConnected ∧
      run p (hearing d n v) true = proceed p g := by
  obtain ⟨g, e, g1, g3, g4, g5⟩ := h.heardMore hn hlen hr (lineStop d.rep)
    (fun m a x b hab _ => by
      have hx : x ∈ c.part ++ v := by rw [hab]; simp
      have e1 : x ≠ nl := fun e => h1 (e ▸ hx)
      have e2 : x ≠ gt := fun e => h2 (e ▸ hx)
      have hk := congrArg List.length hab
      rw [List.length_append (bs := x :: b), List.length_cons] at hk
      have hlm : lineMax = 60 := rfl
      unfold lineStop
      rw [if_neg]; simp [e1, e2]; omega)
  refine ⟨g, g1, g3, g4, ?_⟩
  have : run p (hearing d n v) true = work p (hearing d n v) := by
    unfold run
    rw [if_neg (by simp [h.calm.isOpen]), if_neg (by simp [h.calm.reset])]
  rw [this]
  unfold work fillLineBuffer
  rw [show (hearing d n v).rep = d.rep from rfl, e]
  show proceed p (flushIfDisconnecting g) = _
  unfold flushIfDisconnecting
  rw [if_neg (fun x => by rw [g1.disc, hs] at x; cases x.1)]

/-- `run()` in state connected. -/
theorem act_ready (hF : Fix n cap c) (hi : d.ipConnected = true)
    (h : Chat p c [] T (at_ .connected .okReply none cs) d) (hf : d.ser.txFree = c.tx) :
    In0 p (mach.ready c).spot (mach.ready c).conf (T ++ (mach.ready c).says) (act d) := by
  obtain ⟨f3, f4, f5, f6, f7, f8, f11⟩ := hF
  have ea : act d = actConnected d := by unfold act; rw [h.snd]
  rw [ea]
  unfold Mach.ready
  by_cases hw : c.wq ≠ []
  · rw [if_pos hw]
    have hp := List.length_pos_iff.mpr hw
    have hb : d.wbuf.bytesAvailable ≠ 0 := by rw [h.avail]; omega
    have h' := h.bwSet (min c.wq.length (c.tx - 22))
    have hn5 : dec5 (min c.wq.length (c.tx - 22)) = decimals (min c.wq.length (c.tx - 22)) := dec5_decimals (by omega)
    have l1 : (decimals (min c.wq.length (c.tx - 22))).length ≤ 5 := decimals_length (by omega) (by omega)
    have hx : ((mach.t.send (Mach.chunk c)).length) ≤ ({ d with bytesToWrite := min c.wq.length (c.tx - 22) } : D).ser.txFree := by
      show _ ≤ d.ser.txFree
      rw [hf]
      simp only [mach, tongueCC, Mach.chunk, List.length_append]
      simp; omega
    have hch : Mach.chunk c = min c.wq.length (c.tx - 22) := rfl
    unfold actConnected
    rw [if_pos hb, h.prepare hf (by omega)]
    simp only [if_true, Bool.false_eq_true, if_false]
    have e1 : mach.t.send (Mach.chunk c) = b!"AT+CIPSEND=" ++ decimals (min c.wq.length (c.tx - 22)) ++ b!"\r\n" := by
      simp only [mach, tongueCC, hch]
    refine ⟨hi, .transmitting, .inr (.inl rfl), ?_, fun x => by cases x⟩
    show Chat _ _ _ _ (at_ .sendDataState .okReply (some b!">") .transmitting) _
    rw [e1] at hx ⊢
    rw [hn5]
    saidIn h' h hx (((Wrote.cmd h'.calm.ser b!"AT+CIPSEND=" (by decide)).arg _ (decimals_zero _)).arg lineEnd (by decide))
  · rw [if_neg hw]
    have hw : c.wq = [] := by simpa using hw
    have hb : ¬ d.wbuf.bytesAvailable ≠ 0 := by rw [h.avail, hw]; simp
    unfold actConnected
    rw [if_neg hb]
    by_cases hd : c.data = true
    · rw [if_pos hd, if_pos (h.data.trans hd)]
      have h' := h.dataSet false
      refine ⟨hi, .receiving, .inr (.inr rfl), ?_, fun _ => hf⟩
      show Chat _ _ _ (T ++ []) (at_ .sendCiprecvdata .okReply none .receiving) _
      rw [List.append_nil]
      movedIn h' h
    · rw [if_neg hd, if_neg (fun x => hd (h.data.symm.trans x))]
      rw [if_pos hi]
      unfold Dev.handleDisconnect
      rw [if_neg (by show ¬ d.disconnectPending = true; rw [h.disc]; simp)]
      refine ⟨hi, .connected, .inl rfl, ?_, fun _ => hf⟩
      show Chat _ _ _ (T ++ []) (at_ .connected .okReply none .connected) _
      rw [List.append_nil]
      moved h

/-- Data is asked for. -/
theorem act_ask (hF : Fix n cap c) (hi : d.ipConnected = true) (hl : live cs)
    (h : Chat p c [] T (at_ .sendCiprecvdata .okReply none cs) d) (hf : d.ser.txFree = c.tx) :
    In0 p (mach.ask c).spot (mach.ask c).conf (T ++ (mach.ask c).says) (act d) := by
  obtain ⟨f3, f4, f5, f6, f7, f8, f11⟩ := hF
  have ea : act d = actCiprecvdata d := by unfold act; rw [h.snd]
  rw [ea]
  unfold Mach.ask
  have hd : ¬ d.disconnectPending = true := by rw [h.disc]; simp
  by_cases h1 : 0 < c.rcv
  · have h1' : d.bytesToReceive > 0 := by rw [h.rcv]; exact h1
    rw [if_pos h1]
    by_cases h2 : c.rq.length < c.rcap
    · have ew : SimDev.requestAmount c.rx 30 d.bytesToReceive (c.rcap - c.rq.length) maxRx = mach.want c := by
        rw [requestAmount_eq (by omega) f4, h.rcv]; rfl
      have hb : mach.want c < 4294967296 := Nat.lt_of_le_of_lt (Nat.min_le_right _ _) (show maxRx < _ by decide)
      have hb' : mach.want c < 10000 := Nat.lt_of_le_of_lt (Nat.min_le_right _ _) (show maxRx < _ by decide)
      have e1 : sendCiprcvdata d = (((d.cmd b!"AT+CIPRECVDATA=").arg (decimals (mach.want c))).arg lineEnd, true) := by
        unfold sendCiprcvdata
        rw [h.calm.askAvail]
        dsimp only
        rw [h.calm.serAvail, h.space, show d.ser.readBufferSize = c.rx from h.calm.ser.rxs, Nat.sub_zero, h.calm.askAvail,
          if_pos ⟨by omega, by omega⟩, ew, dec_decimals hb]
      have e : actCiprecvdata d = { (((d.cmd b!"AT+CIPRECVDATA=").arg (decimals (mach.want c))).arg lineEnd) with
          snd := .waitReceive, rep := .parseStateCiprecvdata } := by
        unfold actCiprecvdata
        rw [if_neg hd, if_pos h1', e1]; rfl
      rw [if_pos h2, e]
      have l1 : (decimals (mach.want c)).length ≤ 4 := decimals_length (by omega) (by omega)
      have hx : (b!"AT+CIPRECVDATA=" ++ decimals (mach.want c) ++ b!"\r\n").length ≤ d.ser.txFree := by
        rw [hf]; simp; omega
      refine ⟨hi, cs, hl, ?_, fun x => by cases x⟩
      show Chat _ _ _ _ (at_ .waitReceive .parseStateCiprecvdata none cs) _
      said h hx (((Wrote.cmd h.calm.ser b!"AT+CIPRECVDATA=" (by decide)).arg _ (decimals_zero _)).arg lineEnd (by decide))
    · have e1 : sendCiprcvdata d = (d, false) := by
        unfold sendCiprcvdata
        rw [h.calm.askAvail]
        dsimp only
        rw [h.calm.serAvail, h.space, if_neg (fun x => by omega)]
      have e : actCiprecvdata d = d := by
        unfold actCiprecvdata
        rw [if_neg hd, if_pos h1', e1]; rfl
      rw [if_neg h2, e]
      refine ⟨hi, cs, hl, ?_, fun _ => hf⟩
      show Chat _ _ _ (T ++ []) _ _
      rw [List.append_nil]
      exact h
  · have e : actCiprecvdata d = { d with snd := .connected } := by
      unfold actCiprecvdata
      rw [if_neg hd, if_neg (by rw [h.rcv]; exact h1)]
    rw [if_neg h1, e]
    refine ⟨hi, cs, hl, ?_, fun _ => hf⟩
    show Chat _ _ _ (T ++ []) (at_ .connected .okReply none cs) _
    rw [List.append_nil]
    moved h

/-- The payload. -/
theorem act_pay (hi : d.ipConnected = true) (hl : live cs)
    (h : Chat p c [] T (at_ .sendDataState .okReply none cs) d) (hf : d.ser.txFree = c.tx) (hb : c.bw ≤ c.wq.length)
    (ht : c.bw ≤ c.tx) : In0 p .confirm (Mach.paid c) (T ++ [c.wq.take c.bw]) (act d) := by
  have ea : act d = { d.sendData with wait := some b!"OK", snd := .connected } := by unfold act; rw [h.snd]; rfl
  rw [ea]
  have h' := h.pay hb (by omega)
  refine ⟨hi, cs, hl, ?_, fun x => by cases x⟩
  show Chat _ _ _ _ (at_ .connected .okReply (some b!"OK") cs) _
  movedIn h' h

/-- The block is complete. -/
theorem act_taken (hi : d.ipConnected = true) (hl : live cs)
    (h : Chat p c [] T (at_ .receiving .okReply none cs) d) (hf : d.ser.txFree = c.tx) (hd : c.rd = 0) :
    In0 p (mach.taken c).spot (mach.taken c).conf T (act d) := by
  have ea : act d = actReceiving d := by unfold act; rw [h.snd]
  rw [ea]
  have h0 : ¬ d.bytesToRead > 0 := by rw [h.rd, hd]; omega
  unfold Mach.taken
  by_cases h1 : 0 < c.rcv
  · have e : actReceiving d = { d with snd := .sendCiprecvdata } := by
      unfold actReceiving
      rw [if_neg h0, if_pos (by rw [h.rcv]; exact h1)]
    rw [if_pos h1, e]
    refine ⟨hi, cs, hl, ?_, fun _ => hf⟩
    show Chat _ _ _ _ (at_ .sendCiprecvdata .okReply none cs) _
    moved h
  · have e : actReceiving d = { d with snd := .connected } := by
      unfold actReceiving
      rw [if_neg h0, if_neg (by rw [h.rcv]; exact h1)]
    rw [if_neg h1, if_neg (show ¬ mach.polls = true by decide), e]
    refine ⟨hi, cs, hl, ?_, fun _ => hf⟩
    show Chat _ _ _ _ (at_ .connected .okReply none cs) _
    moved h

/-- The driver goes on. -/
theorem pro (hF : Fix n cap c) (hs : ∀ b, s ≠ .taking b) (hm : s ≠ .query ∧ s ≠ .count ∧ s ≠ .counted) (h : In0 p s c T d) :
    In0 p (mach.run s c).spot (mach.run s c).conf (T ++ (mach.run s c).says) (proceed p d) := by
  obtain ⟨hi, cs, hl, hc, hf⟩ := h
  have f5 := hF.2.2.1
  cases s with
  | ready => rw [proceed_act hc rfl rfl (by rw [hf rfl]; omega)]; exact act_ready hF hi hc (hf rfl)
  | ask => rw [proceed_act hc rfl rfl (by rw [hf rfl]; omega)]; exact act_ask hF hi hl hc (hf rfl)
  | taking b => exact absurd rfl (hs b)
  | prompt => rw [proceed_wait hc (.inl (by simp [spotSt]))]; exact ⟨hi, cs, hl, by simpa [Mach.run] using hc, by simp [Mach.run, free]⟩
  | confirm => rw [proceed_wait hc (.inl (by simp [spotSt]))]; exact ⟨hi, cs, hl, by simpa [Mach.run] using hc, by simp [Mach.run, free]⟩
  | asked k => rw [proceed_wait hc (.inr (by simp [spotSt]))]; exact ⟨hi, cs, hl, by simpa [Mach.run] using hc, by simp [Mach.run, free]⟩
  | taken => rw [proceed_wait hc (.inl (by simp [spotSt]))]; exact ⟨hi, cs, hl, by simpa [Mach.run] using hc, by simp [Mach.run, free]⟩
  | query => exact absurd rfl hm.1
  | count => exact absurd rfl hm.2.1
  | counted => exact absurd rfl hm.2.2

/-! ### Lines -/

/-- Lines that are not about the current command. -/
def Aside (l : List Byte) : Prop :=
  ¬ b!"OK" <+: l ∧ Clear [b!"ERROR", b!"SEND FAIL"] l ∧ ¬ b!"+CIPRECVDATA" <+: l ∧ ¬ b!">" <+: l

theorem parse_aside (hl : LineDone g l) (ha : Aside l) (hw : g.wait = none ∨ g.wait = some b!"OK" ∨ g.wait = some b!">")
    (hr : g.rep = .okReply ∨ g.rep = .parseStateCiprecvdata) : parseLine p g = (checkState p g, false) := by
  obtain ⟨a1, a2, a3, a4⟩ := ha
  refine parseLine_eq (a := g) (isError_clear hl a2) ?_ ?_
  · rcases hw with hw | hw | hw
    · exact parseWait_none hw
    · exact parseWait_clear hl hw (by decide) a1
    · exact parseWait_clear hl hw (by decide) a4
  · rcases hr with hr | hr
    · exact parseReply_ok hr
    · unfold parseReply parseCiprecvdata
      rw [hr]
      simp only [hl.has_false (by decide) a3, Bool.false_eq_true, if_false]

theorem spot_wait (cs : ConnState) (s : Spot) :
    ((spotSt cs s).wait = none ∨ (spotSt cs s).wait = some b!"OK" ∨ (spotSt cs s).wait = some b!">") ∧
    ((spotSt cs s).rep = .okReply ∨ (spotSt cs s).rep = .parseStateCiprecvdata) ∧
    Snd.connected.idx ≤ (spotSt cs s).snd.idx ∧ (spotSt cs s).disc = false := by
  cases s <;> simp [spotSt, Snd.idx]

/-- A line that is not about the current command. -/
theorem hear_aside (hF : Fix n cap c) (h : In0 p s c T d) (hs : ∀ b, s ≠ .taking b) {v : List Byte} (hv0 : v ≠ [])
    (hl : IsLine (c.part ++ v)) (ha : Aside (c.part ++ v)) :
    ∃ g, In0 p s (c.mid []) T g ∧ LineDone g (c.part ++ v) ∧ Snd.connected.idx ≤ g.snd.idx ∧ run p (hearing d n v) true = proceed p (checkState p g) ∧
      Behind p v c.rx (hearing d n v) (checkState p g) := by
  obtain ⟨f3, f4, f5, f6, f7, f8, f11⟩ := hF
  obtain ⟨hi, cs, hv, hc, hf⟩ := h
  obtain ⟨t, ht, t1, t2, t3⟩ := hl.text
  have hlen := hl.len
  rw [ht, List.length_append, List.length_singleton] at hlen
  obtain ⟨g, g1, g2, g3, g4, e, hB⟩ := run_heardEnd (p := p) hc ht hv0 f7 f3 hlen t1 t2 (.inl rfl)
  obtain ⟨w1, w2, w3, w4⟩ := spot_wait cs s
  rw [← ht] at g2
  have ep := parse_aside (p := p) g2 ha (by rw [g1.wait]; exact w1) (by rw [g1.rep]; exact w2)
  rw [ep] at e hB
  exact ⟨g, ⟨g4.trans hi, cs, hv, g1, fun _ => g3⟩, g2, by rw [g1.snd]; exact w3, e, hB rfl⟩

/-- The awaited line `OK`, or the prompt. -/
theorem hear_good (hF : Fix n cap c) {q : St Snd Rep} {v t : List Byte} {z : Byte} (hv' : c.part ++ v = t ++ [z]) (hv0 : v ≠ [])
    (hi : d.ipConnected = true)
    (hc : Chat p c [] T q d) {w : List Byte} (hw : q.wait = some w) (hr : q.rep = .okReply) (hq : q.ask = false) (h0 : (0 : Byte) ∉ w)
    (hlen : t.length + 1 ≤ 60) (h1 : nl ∉ t) (h2 : gt ∉ t) (hz : z = nl ∨ z = gt) (hp : w <+: t ++ [z])
    (ha : Clear [b!"+IPD", b!"CLOSED"] (t ++ [z])) (he : Clear [b!"ERROR", b!"SEND FAIL"] (t ++ [z])) :
    ∃ g, g.ipConnected = true ∧ Chat p (c.mid []) [] T { q with wait := none } g ∧ g.ser.txFree = c.tx ∧
      run p (hearing d n v) true = proceed p g ∧ proceed p g = act g ∧ Behind p v c.rx (hearing d n v) g := by
  obtain ⟨f3, f4, f5, f6, f7, f8, f11⟩ := hF
  obtain ⟨g, g1, g2, g3, g4, e, hB⟩ := run_heardEnd (p := p) hc hv' hv0 f7 f3 hlen h1 h2 hz
  have hg2 : Chat p (c.mid []) [] T { q with wait := none } ({ g with wait := none } : D) :=
    (g1.set ({ g with wait := none } : D) rfl rfl rfl g1.calm.lineRead).at (by
      show (⟨g.snd, g.rep, none, g.cs, g.disconnectPending, g.connectPending, decide (g.rssi = int16Max)⟩ : St _ _) = _
      simp [g1.snd, g1.cs, g1.disc, g1.conn, g1.rep, g1.ask])
  have ep : parseLine p g = ({ g with wait := none }, false) := by
    rw [parseLine_eq (isError_clear g2 he) (parseWait_good g2 (g1.wait.trans hw) h0 hp) (parseReply_ok (g1.rep.trans hr)),
    checkState_clear (d := { g with wait := none }) (l := t ++ [z]) ⟨g2.text, g2.zero, g2.fill⟩ ha]
  rw [ep] at e hB
  exact ⟨{ g with wait := none }, g4.trans hi, hg2, g3, e, proceed_act hg2 rfl hr (by show 20 ≤ g.ser.txFree; omega) hq, hB rfl⟩

/-! ### A block of data -/

theorem proceed_take {b : List Byte} (ht : 20 ≤ c.tx) (h : Take c (ChatExt p) t0 T (at_ .receiving .okReply none cs) b d) :
    proceed p d = actReceiving d := by
  obtain ⟨s, h1⟩ := h.talk
  have hsp : d.serSpace = c.tx := by
    unfold Dev.serSpace; rw [h.ser.spaceAvailable]; exact h.free
  have hask : d.askSpace = d := by
    unfold Dev.askSpace; rw [h.ser.spaceAvailable]
  have hw : d.wait = none := h1.wait
  have hr : d.rep = .okReply := h1.rep
  have hsnd : d.snd = .receiving := h1.snd
  have hrs : d.rssi ≠ int16Max := fun x => by rw [h1.ask] at x; simp at x
  have hlr := h.lineRead
  unfold proceed
  rw [hw, hr, if_neg (by simp), hsp, if_neg (by omega), hask]
  unfold sendNext
  rw [if_neg (fun x => hrs x.1), if_neg (fun x => by rw [hlr] at x; cases x.2.2)]
  unfold act
  rw [hsnd]

theorem run_take {b : List Byte} (h : Take c (ChatExt p) t0 T (at_ .receiving .okReply none cs) b d) :
    run p d true = proceed p d := by
  obtain ⟨s, h1⟩ := h.talk
  have a1 : d.isOpen = true := h1.calm.isOpen
  have a3 : d.resetPending = false := h1.calm.reset
  have a4 : d.disconnectPending = false := h1.disc
  have e : run p d true = work p d := by
    unfold run
    rw [a1, a3]; rfl
  have ef : d.fillLine (lineStop d.rep) = (d, false) := by
    unfold Dev.fillLine
    rw [if_neg (by rw [h.lineRead]; simp)]
  rw [e]
  unfold work fillLineBuffer
  rw [ef]
  show proceed p (flushIfDisconnecting d) = _
  unfold flushIfDisconnecting
  rw [if_neg (fun x => by rw [a4] at x; cases x.1)]

/-- A part of the block is there. -/
theorem take_wait {b : List Byte} (ht : 20 ≤ c.tx) (h : Take c (ChatExt p) t0 T (at_ .receiving .okReply none cs) b d)
    (hb : b.length < c.rd) : proceed p d = d := by
  obtain ⟨s, h1⟩ := h.talk
  have hd : d.bytesToRead = c.rd := h1.rd
  rw [proceed_take ht h]
  unfold actReceiving
  rw [if_pos (by rw [hd]; omega), h.wait hb]; rfl

theorem complete (h : Chat p c t0 T (at_ .receiving .okReply none cs) d) :
    Chat p c t0 T (at_ .receiving .okReply (some b!"OK") cs) ({ d with rep := .okReply, wait := some okStr } : D) := by
  moved h

/-- Bytes arrive. -/
theorem hear_bytes (hF : Fix n cap c) {b : List Byte} (h : In1 p b c T d) (hb : b.length + l.length ≤ c.rd)
    (h0 : 0 < c.rd) (h1 : c.rq.length + c.rd ≤ c.rcap) (h2 : c.rd ≤ c.rx) :
    In p n cap (Mach.gets c b l).spot (Mach.gets c b l).conf T (run p (hearing d n l) true) := by
  have hF' := hF
  obtain ⟨f3, f4, f5, f6, f7, f8, f11⟩ := hF
  obtain ⟨hi, cs, hv, hc⟩ := h
  have hh := hc.hearing f7 l (by omega)
  rw [run_take hh]
  unfold Mach.gets
  by_cases he : (b ++ l).length = c.rd
  · rw [if_pos he]
    obtain ⟨a1, a2, a3, a4⟩ := hh.all he h1
    have hd : (hearing d n l).bytesToRead = c.rd := by obtain ⟨s, x⟩ := hh.talk; exact x.rd
    have e : proceed p (hearing d n l) = { (hearing d n l).receive.1 with rep := .okReply, wait := some okStr } := by
      rw [proceed_take (by omega) hh]
      unfold actReceiving
      rw [if_pos (by rw [hd]; exact h0)]
      dsimp only
      rw [if_pos a1]
    rw [e]
    exact ⟨hF', a4.trans hi, cs, hv, complete a2, fun x => by cases x⟩
  · rw [if_neg he]
    rw [take_wait (by omega) hh (by rw [List.length_append] at he ⊢; omega)]
    exact ⟨hF', hi, cs, hv, hh⟩

/-- The modem says how many bytes it gives. -/
theorem hear_header (hF : Fix n cap c) {j k : Nat} (hj : 0 < j) (hjr : j ≤ c.rcv) (hd : c.rd = 0) (hjk : j ≤ k) (hk : k ≤ cap)
    (hrc : c.rcv < 18446744073709551616) {v : List Byte} (hv0 : v ≠ [])
    (hv' : tongueCC.header j (k - j) = c.part ++ v) (h : In0 p (.asked j) c T d) :
    In1 p [] { c.mid [] with rcv := c.rcv - j, rd := j } T (run p (hearing d n v) true) ∧
      Behind p v c.rx (hearing d n v) (run p (hearing d n v) true) := by
  obtain ⟨f3, f4, f5, f6, f7, f8, f11⟩ := hF
  obtain ⟨hi, cs, hv, hc, hf⟩ := h
  have l1 : (decimals j).length ≤ 10 := decimals_length (by omega) (by omega)
  have el : tongueCC.header j (k - j) = b!"+CIPRECVDATA," ++ decimals j ++ b!"\r" ++ [nl] := by simp [tongueCC, nl]
  obtain ⟨i1, i2, i3⟩ := Sim800.isLine_nums (pre := b!"+CIPRECVDATA,") (n := j) (rest := b!"\r") (by decide) (by decide)
    (by decide) (by decide) (by decide) (by decide) (by simp; omega)
  rw [el] at hv'
  obtain ⟨g, g1, g2, g3, g4, e, hB⟩ := run_heardEnd (p := p) hc hv'.symm hv0 f7 f3 i3 i1 i2 (.inl rfl)
  rw [e]
  have hpre : b!"+CIPRECVDATA" <+: b!"+CIPRECVDATA," ++ decimals j ++ b!"\r" ++ [nl] :=
    ⟨b!"," ++ decimals j ++ b!"\r" ++ [nl], by simp⟩
  have hst : strtol p.long64 (g.line.drop 13) = j :=
    g2.strtol p.long64 b!"+CIPRECVDATA," b!"\r\n" j (by simp [nl]) (by omega) (by decide)
  have hrep : parseReply p g =
      { g with bytesToReceive := c.rcv - j, bytesToRead := j, lineRead := false, rep := .okReply, snd := .receiving } := by
    unfold parseReply parseCiprecvdata
    rw [g1.rep]
    simp only [spotSt, g2.has_true (by decide) hpre, if_true, hst, toInt_small (show j < 2147483648 by omega)]
    rw [addSize_small (by rw [g1.rd, hd]; omega), subSize_small (by rw [g1.rcv]; exact hjr) (by rw [g1.rcv]; exact hrc), g1.rcv, g1.rd, hd,
      Nat.zero_add]
  have h1 : Take { c.mid [] with rcv := c.rcv - j, rd := j } (ChatExt p) [] T (at_ .receiving .okReply none cs) []
      ({ g with bytesToReceive := c.rcv - j, bytesToRead := j, lineRead := false, rep := .okReply, snd := .receiving } : D) := by
    have h' := g1.rdSet (c.rcv - j) j
    have h2 : Chat p { c.mid [] with rcv := c.rcv - j, rd := j } [] T (at_ .receiving .okReply none cs)
        ({ g with bytesToReceive := c.rcv - j, bytesToRead := j, rep := .okReply, snd := .receiving } : D) := by
      refine Talk.setAt h' _ ?_ ?_ ?_ ?_ ?_
      · rfl
      · rfl
      · rfl
      · exact g1.calm.lineRead
      · simp [Dev.st, g1.cs, g1.disc, g1.conn, g1.wait, g1.ask, spotSt]
    exact Take.start h2 g3
  have ep : parseLine p g = ({ g with bytesToReceive := c.rcv - j, bytesToRead := j, lineRead := false, rep := .okReply, snd := .receiving }, false) := by
    rw [parseLine_eq (isError_clear g2 (clear_of hpre (by decide))) (parseWait_none g1.wait) hrep, checkState_clear
      (d := { g with bytesToReceive := c.rcv - j, bytesToRead := j, lineRead := false, rep := .okReply, snd := .receiving })
      ⟨g2.text, g2.zero, g2.fill⟩ (by
      intro a ha
      simp only [List.mem_cons, List.not_mem_nil, or_false] at ha
      rcases ha with rfl | rfl
      · exact not_prefix_of hpre (by decide) (by decide)
      · exact not_prefix_of hpre (by decide) (by decide))]
  rw [ep] at hB ⊢
  simp only [Bool.false_eq_true, if_false]
  rw [take_wait (by show 20 ≤ c.tx; omega) h1 hj]
  exact ⟨⟨g4.trans hi, cs, hv, h1⟩, hB rfl⟩

/-! ### The driver follows the machine -/

theorem aside_of (hl : IsLine l) (h : Clear meaningCC l) : Aside l ∧ Clear [b!"+IPD", b!"CLOSED"] l := by
  refine ⟨⟨h _ (by simp [meaningCC]), fun x hx => h x ?_, h _ (by simp [meaningCC]), Sim800.not_gt hl⟩, fun x hx => h x ?_⟩ <;>
    · simp only [List.mem_cons, List.not_mem_nil, or_false] at hx
      rcases hx with rfl | rfl <;> simp [meaningCC]

theorem exec_hear0 (d : D) (l : List Byte) : exec (step p) d (hear n l 0) = run p (hearing d n l) true :=
  exec_hear step_irq d l 0

theorem In.zero (hF : Fix n cap c) (hs : ∀ b, s ≠ .taking b) (h : In0 p s c T d) : In p n cap s c T d := by
  cases s <;> first | exact ⟨hF, h⟩ | exact absurd rfl (hs _)

theorem In.get0 (hs : ∀ b, s ≠ .taking b) (h : In p n cap s c T d) : In0 p s c T d := by
  cases s <;> first | exact h.2 | exact absurd rfl (hs _)

theorem not_taking_of {M : Mach} {ph : Phase} (h : Meet M s c ph) (hb : ph.busy = false) : ∀ b, s ≠ .taking b := by
  rintro b rfl
  revert h hb
  cases ph <;> simp [Meet, Phase.busy]

theorem meet_no {ph : Phase} (h : Meet mach s c ph) : s ≠ .query ∧ s ≠ .count ∧ s ≠ .counted := by
  refine ⟨?_, ?_, ?_⟩ <;> rintro rfl <;> cases ph <;> simp [Meet, mach] at h

theorem run_not_taking (hs : ∀ b, s ≠ .taking b) : ∀ b, (mach.run s c).spot ≠ .taking b := by
  intro b
  cases s <;> simp only [Mach.run, Mach.ready, Mach.ask] <;> first | exact absurd rfl (hs _) | (repeat' split) <;> simp | simp

theorem run_fix (hF : Fix n cap c) : Fix n cap (mach.run s c).conf := by
  cases s <;> simp only [Mach.run, Mach.ready, Mach.ask] <;> first | (repeat' split) <;> exact hF | exact hF

theorem In.pro (hF : Fix n cap c) (hs : ∀ b, s ≠ .taking b) (hm : s ≠ .query ∧ s ≠ .count ∧ s ≠ .counted) (h : In0 p s c T d) :
    In p n cap (mach.run s c).spot (mach.run s c).conf (T ++ (mach.run s c).says) (proceed p d) :=
  In.zero (run_fix hF) (run_not_taking hs) (CC1352P7.pro hF hs hm h)

theorem ready_same (c : Conf) : mach.ready c = mach.run .ready c := rfl
theorem ask_same (c : Conf) : mach.ask c = mach.run .ask c := rfl

theorem good (hF : Fix n cap c) : mach.Good c := by
  obtain ⟨f3, f4, f5, f6, f7, f8, f11⟩ := hF
  refine ⟨fun _ => rfl, fun m hm => ?_, fun m k hm => ?_, fun m k hm => ?_, by show 30 < c.rx; omega, by omega, by decide, f8, fun k => ?_,
    by decide, (by intro h; cases h), fun j k => ?_⟩
  · simp [Modem.listen, hm]
  · have h1 : tongueCC.ask k ≠ tongueCC.query := fun h => by simp [tongueCC] at h
    have h2 : readNumber 15 (tongueCC.ask k) = k := readNumber_eq b!"AT+CIPRECVDATA=" b!"\r\n" k (by decide)
    show Modem.listen tongueCC m (tongueCC.ask k) = _
    unfold Modem.listen
    rw [hm]
    simp only [h1, if_false, show tongueCC.askAt = 15 from rfl, h2, if_true]
  · have h1 : tongueCC.send k ≠ tongueCC.query := fun h => by simp [tongueCC] at h
    have h3 : ∀ j, tongueCC.send k ≠ tongueCC.ask j := fun j h => by
      have := congrArg (List.take 7) h
      simp [tongueCC] at this
    have h2 : readNumber 11 (tongueCC.send k) = k := readNumber_eq b!"AT+CIPSEND=" b!"\r\n" k (by decide)
    show Modem.listen tongueCC m (tongueCC.send k) = _
    unfold Modem.listen
    rw [hm]
    simp only [h1, h3, if_false, show tongueCC.sendAt = 11 from rfl, h2, if_true]
  · simp [mach, tongueCC]
  · simp [mach, tongueCC]

/-- All texts of the modem end with their only end of line or prompt. -/
theorem worded (hF : Fix n cap c) (h : Telling mach cap meaningCC s l) : Worded l := by
  obtain ⟨f3, f4, f5, f6, f7, f8, f11⟩ := hF
  cases h with
  | noise h1 _ => exact h1.worded
  | @announce k h1 =>
    have l1 : (decimals k).length ≤ 10 := decimals_length (by omega) (by omega)
    obtain ⟨i1, i2, i3⟩ := Sim800.isLine_nums (pre := b!"+IPD,") (n := k) (rest := b!"\r") (by decide) (by decide) (by decide) (by decide)
      (by decide) (by decide) (by simp; omega)
    exact ⟨_, nl, by simp [mach, tongueCC, nl], i1, i2, .inl rfl, i3⟩
  | prompt => exact ⟨[], gt, rfl, by decide, by decide, .inr rfl, by decide⟩
  | confirm => exact ⟨b!"OK\r", nl, rfl, by decide, by decide, .inl rfl, by decide⟩
  | done => exact ⟨b!"OK\r", nl, rfl, by decide, by decide, .inl rfl, by decide⟩
  | count h => cases h
  | @header j k _ h1 =>
    have l1 : (decimals j).length ≤ 10 := decimals_length (by omega) (by omega)
    obtain ⟨i1, i2, i3⟩ := Sim800.isLine_nums (pre := b!"+CIPRECVDATA,") (n := j) (rest := b!"\r") (by decide) (by decide)
      (by decide) (by decide) (by decide) (by decide) (by simp; omega)
    exact ⟨_, nl, by simp [mach, tongueCC, nl], i1, i2, .inl rfl, i3⟩

theorem follows (p : Platform) (n cap : Nat) :
    Follows mach ⟨tongueCC, n, cap, meaningCC⟩ (step p) (In p n cap) where
  tongue := rfl
  good h := good h.1
  seen := by
    intro s c T d h
    obtain ⟨hF, h⟩ := h
    cases s with
    | taking b =>
      obtain ⟨hi, cs, hl, hc⟩ := h
      obtain ⟨x, hc⟩ := hc.talk
      have h := Talk.seen hc hl
      exact ⟨h.utter, h.whole, h.took, h.gave, h.conn, h.wq, h.rq, h.rd⟩
    | _ =>
      obtain ⟨hi, cs, hl, hc, hf⟩ := h
      exact Talk.seen hc hl
  run := by
    intro s c T d ph h hm
    show In p n cap _ _ _ (run p d true)
    by_cases hs : ∀ b, s ≠ .taking b
    · obtain ⟨hi, cs, hl, hc, hf⟩ := In.get0 hs h
      rw [run_calm' hc (spot_wait cs s).2.2.2]
      exact In.pro h.1 hs (meet_no hm) ⟨hi, cs, hl, hc, hf⟩
    · cases s with
      | taking b =>
        obtain ⟨hF, hi, cs, hl, hc⟩ := h
        have hb : b.length < c.rd := by
          revert hm
          cases ph <;> simp only [Meet] <;> first | exact False.elim | skip
          rintro ⟨h1, h2, -⟩
          have := List.length_pos_iff.mpr h1
          omega
        rw [run_take hc, take_wait (by have := hF.2.2.1; omega) hc hb]
        exact ⟨hF, hi, cs, hl, by show Take _ _ _ (T ++ []) _ _ _; rw [List.append_nil]; exact hc⟩
      | _ => exact absurd (by simp) hs
  more := by
    intro s c T d m a v x m' h hf ha hs hx0
    obtain ⟨h1, h2⟩ := hf.says ha hs
    obtain ⟨k1, k2, k3⟩ := (worded h.1 h1).front hx0
    obtain ⟨hi, cs, hl, hc, hf'⟩ := In.get0 h2 h
    obtain ⟨g, g1, g3, g4, e⟩ := run_moreEnd (p := p) hc h.1.2.2.2.2.1 h.1.1 k3 k1 k2 (spot_wait cs s).2.2.2
    rw [exec_hear0, e]
    exact In.pro (c := c.mid (c.part ++ v)) h.1 h2 (meet_no hf.meet) ⟨g4.trans hi, cs, hl, g1, fun _ => g3⟩
  noise := by
    intro s c T d ph v h hm hb hv0 hl hx
    have hs := not_taking_of hm hb
    obtain ⟨h1, h2⟩ := aside_of hl hx
    obtain ⟨g, g1, g2, g3, e, -⟩ := hear_aside (p := p) h.1 (In.get0 hs h) hs hv0 hl h1
    show In p n cap _ _ _ (exec (step p) d (hear n v 0))
    rw [exec_hear0, e, checkState_clear g2 h2]
    exact In.pro (c := c.mid []) h.1 hs (meet_no hm) g1
  tell := by
    intro s c T d ph v k h hm hb hk hv0 hv'
    have hs := not_taking_of hm hb
    have l1 : (decimals k).length ≤ 10 := decimals_length (by have := h.1.2.2.2.2.2.2; dsimp only at hk; omega) (by omega)
    obtain ⟨i1, i2, i3⟩ := Sim800.isLine_nums (pre := b!"+IPD,") (n := k) (rest := b!"\r") (by decide) (by decide)
      (by decide) (by decide) (by decide) (by decide) (by simp; omega)
    have hv'' : tongueCC.announce k = c.part ++ v := hv'
    have el : tongueCC.announce k = b!"+IPD," ++ decimals k ++ b!"\r" ++ [nl] := by simp [tongueCC, nl]
    have hpre : b!"+IPD" <+: b!"+IPD," ++ decimals k ++ b!"\r" ++ [nl] := ⟨b!"," ++ decimals k ++ b!"\r" ++ [nl], by simp⟩
    have hl : IsLine (tongueCC.announce k) := by
      rw [el]
      refine ⟨by simp only [List.length_append, List.length_singleton] at i3 ⊢; omega, _, rfl, i1, i2, ?_⟩
      simp [decimals_zero]
    have ha : Aside (tongueCC.announce k) := by
      rw [el]
      exact ⟨not_prefix_of hpre (by decide) (by decide), clear_of hpre (by decide), not_prefix_of hpre (by decide) (by decide),
        not_prefix_of hpre (by decide) (by decide)⟩
    obtain ⟨g, g1, g2, g3, e, -⟩ := hear_aside (p := p) h.1 (In.get0 hs h) hs hv0 (hv'' ▸ hl) (hv'' ▸ ha)
    show In p n cap _ _ _ (exec (step p) d (hear n v 0))
    have hst : strtol p.long64 (g.line.drop 5) = k :=
      g2.strtol p.long64 b!"+IPD," b!"\r\n" k (by rw [← hv'', el]; simp [nl]) (by have := h.1.2.2.2.2.2.2; dsimp only at hk; omega) (by decide)
    have ec : checkState p g = { g with bytesToReceive := k, dataPending := true } := by
      unfold checkState
      rw [if_pos g3, if_pos ((show strncmpEq g.line.cells b!"+IPD," 4 = g.has b!"+IPD" from rfl).trans
        (g2.has_true (by decide) (by rw [← hv'', el]; exact hpre))), hst, toU64_small (by have := h.1.2.2.2.2.2.2; dsimp only at hk; omega)]
    rw [exec_hear0, e, ec]
    obtain ⟨hi, cs, hv, hc, hf⟩ := g1
    exact In.pro (c := mach.told (c.mid []) k) h.1 hs (meet_no hm) ⟨hi, cs, hv, (hc.rcvOnly k).dataSet true, hf⟩
  prompt := by
    intro c T d ph v h hm hv0 hv'
    obtain ⟨hF, hi, cs, hl, hc, hf⟩ := h
    obtain ⟨g, g1, g3, g4, e1, e2, -⟩ := hear_good (p := p) hF (v := v) (t := []) (z := gt) hv'.symm hv0 hi hc rfl rfl rfl (by decide) (by decide) (by decide) (by decide) (.inr rfl)
      (by decide) (by unfold Spec.Clear; decide) (by unfold Spec.Clear; decide)
    show In p n cap _ _ _ (exec (step p) d (hear n v 0))
    have hb : c.bw ≤ c.wq.length ∧ c.bw ≤ c.tx - 22 := by
      revert hm
      cases ph <;> simp only [Meet] <;> first | exact False.elim | skip
      rintro ⟨rfl, h1, h2, h3⟩
      exact ⟨h2, h3⟩
    rw [exec_hear0]
    rw [e1, e2]
    exact ⟨hF, act_pay g1 hl g3 g4 hb.1 (by show c.bw ≤ c.tx; omega)⟩
  confirm := by
    intro c T d v h hv0 hv'
    obtain ⟨hF, hi, cs, hl, hc, hf⟩ := h
    obtain ⟨g, g1, g3, g4, e1, e2, -⟩ := hear_good (p := p) hF (v := v) (t := b!"OK\r") (z := nl) hv'.symm hv0 hi hc rfl rfl rfl (by decide) (by decide) (by decide) (by decide) (.inl rfl)
      (by decide) (by unfold Spec.Clear; decide) (by unfold Spec.Clear; decide)
    show In p n cap _ _ _ (exec (step p) d (hear n v 0))
    rw [exec_hear0, e1, ready_same]
    exact In.pro (c := c.mid []) hF (by simp) (by simp) ⟨g1, cs, hl, g3, fun _ => g4⟩
  count := by intro c T d v k hp; cases hp
  counted := by intro c T d v hp; cases hp
  header := by
    intro c T d j k ph v h hm hd hjk hrc hk hv0 hv'
    have hb : 0 < j ∧ j ≤ c.rcv := by
      revert hm
      cases ph <;> simp only [Meet] <;> first | exact False.elim | skip
      rintro ⟨rfl, h1, h2, -⟩
      exact ⟨h1, h2⟩
    rw [exec_hear0]
    exact ⟨h.1, (hear_header h.1 hb.1 hb.2 hd hjk hk (by have := h.1.2.2.2.2.2.2; dsimp only at hk; omega) hv0 hv' h.2).1⟩
  gets := by
    intro c T d b l ph h hm hb
    have : 0 < c.rd ∧ c.rq.length + c.rd ≤ c.rcap ∧ c.rd ≤ c.rx := by
      revert hm
      cases ph <;> simp only [Meet] <;> first | exact False.elim | skip
      rintro ⟨h1, h2, h3, h4⟩
      have := List.length_pos_iff.mpr h1
      exact ⟨by omega, h3, h4⟩
    rw [exec_hear0]
    exact hear_bytes h.1 h.2 hb this.1 this.2.1 this.2.2
  taken := by
    intro c T d v h hd hv0 hv'
    obtain ⟨hF, hi, cs, hl, hc, hf⟩ := h
    obtain ⟨g, g1, g3, g4, e1, e2, -⟩ := hear_good (p := p) hF (v := v) (t := b!"OK\r") (z := nl) hv'.symm hv0 hi hc rfl rfl rfl (by decide) (by decide) (by decide) (by decide) (.inl rfl)
      (by decide) (by unfold Spec.Clear; decide) (by unfold Spec.Clear; decide)
    rw [exec_hear0, e1, e2]
    refine In.zero (by exact hF) ?_ (act_taken g1 hl g3 g4 hd)
    intro b
    simp only [Mach.taken]
    repeat' split
    all_goals simp
  write := by
    intro s c T d bs h
    show ∃ b, In _ _ _ _ _ _ (d.common (.write bs))
    by_cases hs : ∀ b, s ≠ .taking b
    · obtain ⟨hi, cs, hl, hc, hf⟩ := In.get0 hs h
      obtain ⟨h1, h2, h3⟩ := hc.write bs
      by_cases hq : (spotSt cs s).cs = .connected
      · rw [if_pos hq] at h1
        exact ⟨_, In.zero (by exact h.1) hs ⟨h3.trans hi, cs, hl, h1, fun x => by rw [h2]; exact hf x⟩⟩
      · rw [if_neg hq] at h1
        refine ⟨[], In.zero (by exact h.1) hs ⟨h3.trans hi, cs, hl, ?_, fun x => by rw [h2]; exact hf x⟩⟩
        rw [List.append_nil, List.append_nil]; exact h1
    · cases s with
      | taking b =>
        obtain ⟨hF, hi, cs, hl, hc⟩ := h
        obtain ⟨b', h1, h2⟩ := hc.write bs
        exact ⟨b', hF, h2.trans hi, cs, hl, h1⟩
      | _ => exact absurd (by simp) hs
  read := by
    intro s c T d k h
    show In _ _ _ _ _ _ (d.common (.read k))
    by_cases hs : ∀ b, s ≠ .taking b
    · obtain ⟨hi, cs, hl, hc, hf⟩ := In.get0 hs h
      obtain ⟨h1, h2, h3⟩ := hc.read k
      exact In.zero (by exact h.1) hs ⟨h3.trans hi, cs, hl, h1, fun x => by rw [h2]; exact hf x⟩
    · cases s with
      | taking b =>
        obtain ⟨hF, hi, cs, hl, hc⟩ := h
        exact ⟨hF, hi, cs, hl, hc.read k⟩
      | _ => exact absurd (by simp) hs

/-- The connection was just opened. -/
theorem Up.joined (hF : Fix n cap c) (h : Up p c [] T d)
    (h1 : c.wq = []) (h2 : c.rq = []) (h3 : c.data = false) (h4 : c.rcv = 0) (h5 : c.rd = 0) (h6 : c.took = []) (h7 : c.gave = []) (h8 : c.part = []) :
    Joined mach ⟨tongueCC, n, cap, meaningCC⟩ (In p n cap) ⟨d, Modem.fresh, none⟩ := by
  refine ⟨.ready, c, T, ⟨hF, h.2.1, .connected, .inl rfl, h.1, fun _ => h.2.2⟩, ⟨trivial, ?_, ?_, ?_, ?_, fun _ _ => h5, ?_⟩, h8⟩
  · rw [h1, h6]; rfl
  · rw [h2, h7]; rfl
  · exact Nat.zero_le _
  · rw [h4]; exact Nat.zero_le _
  · unfold Fresh
    rw [if_neg (show ¬ mach.polls = true by decide)]
    simp [Modem.fresh, h4]

/-- One more `run()` when everything is over. -/
theorem In.up (h : In p n cap .ready c T d) (hI : c.Idle) :
    Up p c [] T (step p d (.run true)) := by
  obtain ⟨hF, hi, cs, hl, hc, hf⟩ := h
  show Up _ _ _ _ (run p d true)
  have hf := hf rfl
  rw [run_calm' hc rfl, proceed_act hc rfl rfl (by rw [hf]; have := hF.2.2.1; omega)]
  have := act_stay hI hc hi
  exact ⟨this.1, this.2.1, by rw [this.2.2]; exact hf⟩

end CC1352P7
end Verif
