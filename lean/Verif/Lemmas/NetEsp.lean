import Verif.Lemmas.Net800
import Verif.Lemmas.EarlyWifi
import Verif.Lemmas.ChatEsp

/-! The Espressif driver with an open TCP connection follows the machine. -/

namespace Verif

open Dev Spec

namespace Espressif

variable {p : Platform} {c : Conf} {w : Option Wifi} {t0 : List Ev} {T : List (List Byte)} {q : St Snd Rep}
  {d g : D} {n : Nat} {l : List Byte} {s : Spot} {cs : ConnState}

/-- The machine. -/
def mach (old : Bool) : Mach := ⟨tongueEsp old, false, 30, maxRx⟩

def spotSt (cs : ConnState) : Spot → St Snd Rep
  | .prompt => at_ .sendDataState .okReply (some b!">") cs
  | .confirm => at_ .connected .okReply (some b!"SEND OK") cs
  | .ask => at_ .sendCiprecvdata .okReply none cs
  | .asked _ => at_ .waitReceive .waitCiprecvdata none cs
  | .taking _ => at_ .receiving .okReply none cs
  | .taken => at_ .receiving .okReply (some b!"OK") cs
  | _ => at_ .connected .okReply none cs

/-- The driver does something by itself. -/
def free : Spot → Bool
  | .ready | .ask => true
  | _ => false

def live (cs : ConnState) : Prop := cs = .connected ∨ cs = .transmitting ∨ cs = .receiving

/-- Sizes and settings. -/
def Fix (n cap : Nat) (c : Conf) : Prop :=
  c.typ = .tcp ∧ 60 ≤ c.rx ∧ c.rx < 18446744073709551616 ∧ 24 ≤ c.tx ∧ c.tx ≤ 65557 ∧ c.tx ≤ n ∧ 0 < c.rcap ∧ cap < 2147483648

/-- The state of the driver; no block is taken. -/
def In0 (p : Platform) (w : Option Wifi) (s : Spot) (c : Conf) (T : List (List Byte)) (d : D) : Prop :=
  d.ipConnected = true ∧ ∃ cs, live cs ∧ Chat p c w [] T (spotSt cs s) d ∧
    (free s = true → d.ser.txFree = c.tx)

def In1 (p : Platform) (w : Option Wifi) (b : List Byte) (c : Conf) (T : List (List Byte)) (d : D) : Prop :=
  d.ipConnected = true ∧ ∃ cs, live cs ∧
    Take c (ChatExt p w) [] T (at_ .receiving .okReply none cs) b d

def In (p : Platform) (w : Option Wifi) (n cap : Nat) (s : Spot) (c : Conf) (T : List (List Byte)) (d : D) : Prop :=
  Fix n cap c ∧ match s with
    | .taking b => In1 p w b c T d
    | s => In0 p w s c T d

variable {cap : Nat} {old : Bool}

/-! ### The state machine -/

theorem run_calm' (h : Chat p c w t0 T q d) (hs : q.disc = false) : run p d true = proceed p d := by
  rw [run_work h]
  unfold work fillLineBuffer
  rw [h.calm.fillLine]
  show proceed p (flushIfDisconnecting d) = _
  unfold flushIfDisconnecting
  rw [if_neg (fun x => by rw [h.disc, hs] at x; cases x.1)]

/-- A line while a block may come. -/
theorem stop_other (hy : c.typ = .tcp) (h : Chat p c w t0 T q d) {t u : List Byte} (hq : q.rep = .okReply ∨ (q.rep = .waitCiprecvdata ∧ ¬ b!"+CIPRECVDATA" <+: t ++ u))
    (h1 : nl ∉ t) (h2 : gt ∉ t) (m : Mem) (a : List Byte) (x : Byte) (b : List Byte) (ht : t = a ++ x :: b) (hlen : a.length + 1 < 60)
    (hm : m.cells.take (a.length + 1) = a ++ [x]) : lineStop d.typ d.rep m (a.length + 1) x = none := by
  have hx : x ∈ t := by rw [ht]; simp
  have e1 : x ≠ nl := fun e => h1 (e ▸ hx)
  have e2 : x ≠ gt := fun e => h2 (e ▸ hx)
  unfold lineStop
  rw [if_neg (by
    rw [h.typ, hy]
    rintro (y | y | y | y)
    · exact e1 y
    · exact e2 y
    · exact y.1 rfl
    · exact absurd y (by show ¬ a.length + 1 = 60; omega)), if_neg]
  rintro ⟨y1, y2, y3⟩
  rw [h.rep] at y1
  rcases hq with hq | ⟨-, hq⟩
  · rw [hq] at y1; cases y1
  have key : ∀ l : List Byte, b!"+CIPRECVDATA" <+: l → (0 : Byte) ∉ l → l.length = 13 → hasPrefix m l = true → False := by
    intro l hl h0 hle hp
    rw [hasPrefix_iff _ _ h0] at hp
    have hp2 : l <+: a ++ [x] := by
      rw [← hm]
      exact List.prefix_take_iff.mpr ⟨hp, by omega⟩
    refine hq (hl.trans (hp2.trans ?_))
    rw [ht]
    exact ⟨b ++ u, by simp⟩
  rcases y3 with ⟨-, y⟩ | ⟨-, y⟩
  · exact key _ (by decide) (by decide) rfl y
  · exact key _ (by decide) (by decide) rfl y

/-- What arrives behind the bytes `v` waits, and `run()` goes on with `e`. -/
def Behind (p : Platform) (v : List Byte) (rx : Nat) (x e : D) : Prop :=
  ∀ y, v.length + y.length ≤ rx → run p (x.more y) true = proceed p (e.more y)

theorem run_heardEnd (hy : c.typ = .tcp) (h : Chat p c w t0 T q d) {v t : List Byte} {z : Byte} (hv' : c.part ++ v = t ++ [z]) (hv0 : v ≠ [])
   
    (hq : q.rep = .okReply ∨ (q.rep = .waitCiprecvdata ∧ ¬ b!"+CIPRECVDATA" <+: t ++ [z])) (hn : c.tx ≤ n) (hr : 60 ≤ c.rx) (hlen : t.length + 1 ≤ 60)
    (h1 : nl ∉ t) (h2 : gt ∉ t) (hz : z = nl ∨ z = gt) :
    ∃ g, Chat p (c.mid []) w t0 T q g ∧ LineDone g (t ++ [z]) ∧ g.ser.txFree = c.tx ∧ g.ipConnected = d.ipConnected ∧
      (run p (hearing d n v) true = if (parseLine p g).2 then (parseLine p g).1 else proceed p (parseLine p g).1) ∧
      ((parseLine p g).2 = false → Behind p v c.rx (hearing d n v) (parseLine p g).1) := by
  obtain ⟨g, e, g1, g2, g3, g4, g5⟩ := h.heardText (r := d.rep) (z := z) hn hv' hv0 hlen hr (lineStop d.typ d.rep)
    (fun m a x b ht hm => stop_other hy h hq h1 h2 m a x b ht (by rw [ht] at hlen; simp at hlen; omega) hm)
    (fun m hm => by
      unfold lineStop
      rcases hz with hz | hz
      · rw [if_pos (.inl hz)]
      · rw [if_pos (.inr (.inl hz))])
  rw [h.rep] at g1
  refine ⟨g, g1, g2, g3, g4, ?_, fun hp y hy => ?_⟩
  · have : run p (hearing d n v) true = work p (hearing d n v) := by
      unfold run
      rw [if_neg (by simp [h.calm.isOpen]), if_neg (by simp [h.calm.reset])]
    rw [this]
    unfold work fillLineBuffer
    rw [show (hearing d n v).rep = d.rep from rfl, show (hearing d n v).typ = d.typ from rfl, e]
    simp
  · have : run p ((hearing d n v).more y) true = work p ((hearing d n v).more y) := by
      unfold run
      rw [if_neg (by show ¬ d.isOpen = false; simp [h.calm.isOpen]), if_neg (by show ¬ d.resetPending = true; simp [h.calm.reset])]
    rw [this]
    unfold work fillLineBuffer
    have hs := (h.calm.arrived (v := v) hn (by have := congrArg List.length hv'; simp at this; omega)).1.still
    have e' := (more_fillLine (lineStop d.typ d.rep) hs y hy (by rw [e])).1
    rw [e] at e'
    rw [show ((hearing d n v).more y).rep = d.rep from rfl, show ((hearing d n v).more y).typ = d.typ from rfl, e']
    simp only [if_true, more_parseLine, hp, Bool.false_eq_true, if_false]

theorem run_moreEnd (h : Chat p c w t0 T q d) {v : List Byte} (hn : c.tx ≤ n) (hr : 60 ≤ c.rx) (hlen : (c.part ++ v).length < 60)
    
    (hs' : ∀ m a x b, c.part ++ v = a ++ x :: b → m.cells.take (a.length + 1) = a ++ [x] → lineStop d.typ d.rep m (a.length + 1) x = none) (hs : q.disc = false) :
    ∃ g, Chat p (c.mid (c.part ++ v)) w t0 T q g ∧ g.ser.txFree = c.tx ∧ g.ipConnected = d.ipConnected ∧
      run p (hearing d n v) true = proceed p g := by
  obtain ⟨g, e, g1, g3, g4, g5⟩ := h.heardMore hn hlen hr (lineStop d.typ d.rep)
    hs'
  refine ⟨g, g1, g3, g4, ?_⟩
  have : run p (hearing d n v) true = work p (hearing d n v) := by
    unfold run
    rw [if_neg (by simp [h.calm.isOpen]), if_neg (by simp [h.calm.reset])]
  rw [this]
  unfold work fillLineBuffer
  rw [show (hearing d n v).rep = d.rep from rfl, show (hearing d n v).typ = d.typ from rfl, e]
  show proceed p (flushIfDisconnecting g) = _
  unfold flushIfDisconnecting
  rw [if_neg (fun x => by rw [g1.disc, hs] at x; cases x.1)]

/-- Before the end of the first part of the answer with a block. -/
theorem stop_header (ht' : d.typ = .tcp) (hr' : d.rep = .waitCiprecvdata) {y z : Byte} (hyz : (y = 44 ∧ z = 58) ∨ (y = 58 ∧ z = 44)) {j : Nat}
    (hj : (decimals j).length ≤ 10) (m : Mem) (a : List Byte) (x : Byte) (b : List Byte) (ht : b!"+CIPRECVDATA" ++ [y] ++ decimals j = a ++ x :: b) :
    lineStop d.typ d.rep m (a.length + 1) x = none := by
  have hd := decimals_digits j
  have hyn : y ≠ nl ∧ y ≠ gt := by rcases hyz with ⟨rfl, -⟩ | ⟨rfl, -⟩ <;> decide
  have hlen := congrArg List.length ht
  simp only [List.length_append, List.length_cons, List.length_nil] at hlen
  have hx : x ∈ b!"+CIPRECVDATA" ++ [y] ++ decimals j := by rw [ht]; simp
  have e1 : x ≠ nl ∧ x ≠ gt := by
    simp only [List.mem_append, List.mem_singleton] at hx
    rcases hx with (hx | rfl) | hx
    · constructor <;> (rintro rfl; revert hx; decide)
    · exact hyn
    · constructor <;> (rintro rfl; have := hd _ hx; revert this; decide)
  unfold lineStop
  rw [ht', hr', if_neg (by
    rintro (v | v | v | v)
    · exact e1.1 v
    · exact e1.2 v
    · exact v.1 rfl
    · exact absurd v (by show ¬ a.length + 1 = 60; omega)), if_neg]
  rintro ⟨-, v2, v3⟩
  have hxd : x ∈ decimals j := by
    have h1 : (b!"+CIPRECVDATA" ++ [y] ++ decimals j)[a.length]? = some x := by rw [ht]; simp
    rw [List.getElem?_append_right (by simp; omega)] at h1
    exact List.mem_of_getElem? h1
  have := hd _ hxd
  rcases v3 with ⟨v, -⟩ | ⟨v, -⟩ <;> (subst v; revert this; decide)

/-- The first part of the answer with a block: `y` after the command, the number, then `z`. -/
theorem run_header (hy : c.typ = .tcp) (h : Chat p c w t0 T q d) {v : List Byte} {y z : Byte} {j : Nat}
    (hv' : c.part ++ v = b!"+CIPRECVDATA" ++ [y] ++ decimals j ++ [z]) (hv0 : v ≠ []) (hq : q.rep = .waitCiprecvdata) (hn : c.tx ≤ n) (hr : 60 ≤ c.rx)
    (hyz : (y = 44 ∧ z = 58) ∨ (y = 58 ∧ z = 44)) (hj : (decimals j).length ≤ 10) :
    ∃ g, Chat p (c.mid []) w t0 T { q with rep := .parseStateCiprecvdata } g ∧ LineDone g (b!"+CIPRECVDATA" ++ [y] ++ decimals j ++ [z]) ∧
      g.ser.txFree = c.tx ∧ g.ipConnected = d.ipConnected ∧
      (run p (hearing d n v) true = if (parseLine p g).2 then (parseLine p g).1 else proceed p (parseLine p g).1) ∧
      ((parseLine p g).2 = false → Behind p v c.rx (hearing d n v) (parseLine p g).1) := by
  have hne : 0 < (decimals j).length := List.length_pos_iff.mpr (decimals_ne_nil j)
  have hr' : d.rep = .waitCiprecvdata := h.rep.trans hq
  have ht' : d.typ = .tcp := h.typ.trans hy
  have hzn : z ≠ nl ∧ z ≠ gt := by rcases hyz with ⟨-, rfl⟩ | ⟨-, rfl⟩ <;> decide
  obtain ⟨g, e, g1, g2, g3, g4, g5⟩ := h.heardText (r := Rep.parseStateCiprecvdata) (t := b!"+CIPRECVDATA" ++ [y] ++ decimals j) (z := z) hn
    hv' hv0 (by simp; omega) hr (lineStop d.typ d.rep)
    (fun m a x b ht _ => stop_header ht' hr' hyz hj m a x b ht)
    (fun m hm => by
      have hp : hasPrefix m (b!"+CIPRECVDATA" ++ [y]) = true := by
        rw [hasPrefix_iff _ _ (by rcases hyz with ⟨rfl, -⟩ | ⟨rfl, -⟩ <;> decide)]
        refine List.IsPrefix.trans ?_ (List.take_prefix ((b!"+CIPRECVDATA" ++ [y] ++ decimals j).length + 1) _)
        rw [hm]
        exact ⟨decimals j ++ [z], by simp⟩
      have hv : (z = 58 ∧ hasPrefix m b!"+CIPRECVDATA," = true) ∨ (z = 44 ∧ hasPrefix m b!"+CIPRECVDATA:" = true) := by
        rcases hyz with ⟨rfl, rfl⟩ | ⟨rfl, rfl⟩
        · exact .inl ⟨rfl, hp⟩
        · exact .inr ⟨rfl, hp⟩
      unfold lineStop
      rw [ht', hr', if_neg (by
        rintro (v | v | v | v)
        · exact hzn.1 v
        · exact hzn.2 v
        · exact v.1 rfl
        · simp [lineMax] at v; omega), if_pos ⟨rfl, by simp; omega, hv⟩])
  refine ⟨g, g1, g2, g3, g4, ?_, fun hp y hy => ?_⟩
  · have : run p (hearing d n v) true = work p (hearing d n v) := by
      unfold run
      rw [if_neg (by simp [h.calm.isOpen]), if_neg (by simp [h.calm.reset])]
    rw [this]
    unfold work fillLineBuffer
    rw [show (hearing d n v).rep = d.rep from rfl, show (hearing d n v).typ = d.typ from rfl, e]
    simp
  · have : run p ((hearing d n v).more y) true = work p ((hearing d n v).more y) := by
      unfold run
      rw [if_neg (by show ¬ d.isOpen = false; simp [h.calm.isOpen]), if_neg (by show ¬ d.resetPending = true; simp [h.calm.reset])]
    rw [this]
    unfold work fillLineBuffer
    have hs := (h.calm.arrived (v := v) hn (by have := congrArg List.length hv'; simp at this; omega)).1.still
    have e' := (more_fillLine (lineStop d.typ d.rep) hs y hy (by rw [e])).1
    rw [e] at e'
    rw [show ((hearing d n v).more y).rep = d.rep from rfl, show ((hearing d n v).more y).typ = d.typ from rfl, e']
    simp only [if_true, more_parseLine, hp, Bool.false_eq_true, if_false]

/-- `run()` in state connected. -/
theorem act_ready (hF : Fix n cap c) (hi : d.ipConnected = true)
    (h : Chat p c w [] T (at_ .connected .okReply none cs) d) (hf : d.ser.txFree = c.tx) :
    In0 p w ((mach old).ready c).spot ((mach old).ready c).conf (T ++ ((mach old).ready c).says) (act d) := by
  obtain ⟨f2, f3, f4, f5, f6, f7, f8, f11⟩ := hF
  have ea : act d = actConnected d := by unfold act; rw [h.snd]
  rw [ea]
  unfold Mach.ready
  by_cases hw : c.wq ≠ []
  · rw [if_pos hw]
    have hp := List.length_pos_iff.mpr hw
    have hb : d.wbuf.bytesAvailable ≠ 0 := by rw [h.avail]; omega
    have h' := h.bwSet (min c.wq.length (c.tx - 22))
    have hn5 : dec5 (min c.wq.length (c.tx - 22)) = decimals (min c.wq.length (c.tx - 22)) := dec5_decimals (by omega)
    have l1 : (decimals (min c.wq.length (c.tx - 22))).length ≤ 5 := decimals_length (by omega) (by omega)
    have hx : (((mach old).t.send (Mach.chunk c)).length) ≤ ({ d with bytesToWrite := min c.wq.length (c.tx - 22) } : D).ser.txFree := by
      show _ ≤ d.ser.txFree
      rw [hf]
      simp only [mach, tongueEsp, Mach.chunk, List.length_append]
      simp; omega
    have hch : Mach.chunk c = min c.wq.length (c.tx - 22) := rfl
    unfold actConnected
    rw [if_pos hb, h.prepare hf (by omega)]
    simp only [if_true, Bool.false_eq_true, if_false]
    have e1 : (mach old).t.send (Mach.chunk c) = b!"AT+CIPSEND=" ++ decimals (min c.wq.length (c.tx - 22)) ++ b!"\r\n" := by
      simp only [mach, tongueEsp, hch]
    refine ⟨hi, .transmitting, .inr (.inl rfl), ?_, fun x => by cases x⟩
    show Chat _ _ _ _ _ (at_ .sendDataState .okReply (some b!">") .transmitting) _
    rw [e1] at hx ⊢
    rw [hn5]
    saidIn h' h hx (((Wrote.cmd h'.calm.ser b!"AT+CIPSEND=" (by decide)).arg _ (decimals_zero _)).arg lineEnd (by decide))
  · rw [if_neg hw]
    have hw : c.wq = [] := by simpa using hw
    have hb : ¬ d.wbuf.bytesAvailable ≠ 0 := by rw [h.avail, hw]; simp
    unfold actConnected
    rw [if_neg hb]
    by_cases hd : c.data = true
    · rw [if_pos hd, if_pos (h.data.trans hd), if_pos (h.typ.trans f2)]
      have h' := h.dataSet false
      refine ⟨hi, .receiving, .inr (.inr rfl), ?_, fun _ => hf⟩
      show Chat _ _ _ _ (T ++ []) (at_ .sendCiprecvdata .okReply none .receiving) _
      rw [List.append_nil]
      movedIn h' h
    · rw [if_neg hd, if_neg (fun x => hd (h.data.symm.trans x))]
      rw [if_pos hi]
      rw [if_neg (by show ¬ d.disconnectPending = true; rw [h.disc]; simp)]
      refine ⟨hi, .connected, .inl rfl, ?_, fun _ => hf⟩
      show Chat _ _ _ _ (T ++ []) (at_ .connected .okReply none .connected) _
      rw [List.append_nil]
      moved h

/-- Data is asked for. -/
theorem act_ask (hF : Fix n cap c) (hi : d.ipConnected = true) (hl : live cs)
    (h : Chat p c w [] T (at_ .sendCiprecvdata .okReply none cs) d) (hf : d.ser.txFree = c.tx) :
    In0 p w ((mach old).ask c).spot ((mach old).ask c).conf (T ++ ((mach old).ask c).says) (act d) := by
  obtain ⟨f2, f3, f4, f5, f6, f7, f8, f11⟩ := hF
  have ea : act d = actCiprecvdata d := by unfold act; rw [h.snd]
  rw [ea]
  unfold Mach.ask
  have hd : ¬ d.disconnectPending = true := by rw [h.disc]; simp
  by_cases h1 : 0 < c.rcv
  · have h1' : d.bytesToReceive > 0 := by rw [h.rcv]; exact h1
    rw [if_pos h1]
    by_cases h2 : c.rq.length < c.rcap
    · have ew : SimDev.requestAmount c.rx 30 d.bytesToReceive (c.rcap - c.rq.length) maxRx = (mach old).want c := by
        rw [requestAmount_eq (by omega) f4, h.rcv]; rfl
      have hb : (mach old).want c < 4294967296 := Nat.lt_of_le_of_lt (Nat.min_le_right _ _) (show maxRx < _ by decide)
      have hb' : (mach old).want c < 10000 := Nat.lt_of_le_of_lt (Nat.min_le_right _ _) (show maxRx < _ by decide)
      have e1 : sendCiprcvdata d = (((d.cmd b!"AT+CIPRECVDATA=").arg (decimals ((mach old).want c))).arg lineEnd, true) := by
        unfold sendCiprcvdata
        rw [h.calm.askAvail]
        dsimp only
        rw [h.calm.serAvail, h.space, show d.ser.readBufferSize = c.rx from h.calm.ser.rxs, Nat.sub_zero, h.calm.askAvail,
          if_pos ⟨by omega, by omega⟩, ew, dec_decimals hb]
      have e : actCiprecvdata d = { (((d.cmd b!"AT+CIPRECVDATA=").arg (decimals ((mach old).want c))).arg lineEnd) with
          snd := .waitReceive, rep := .waitCiprecvdata } := by
        unfold actCiprecvdata
        rw [if_neg hd, if_pos h1', e1]; rfl
      rw [if_pos h2, e]
      have l1 : (decimals ((mach old).want c)).length ≤ 4 := decimals_length (by omega) (by omega)
      have hx : (b!"AT+CIPRECVDATA=" ++ decimals ((mach old).want c) ++ b!"\r\n").length ≤ d.ser.txFree := by
        rw [hf]; simp; omega
      refine ⟨hi, cs, hl, ?_, fun x => by cases x⟩
      show Chat _ _ _ _ _ (at_ .waitReceive .waitCiprecvdata none cs) _
      said h hx (((Wrote.cmd h.calm.ser b!"AT+CIPRECVDATA=" (by decide)).arg _ (decimals_zero _)).arg lineEnd (by decide))
    · have e1 : sendCiprcvdata d = (d, false) := by
        unfold sendCiprcvdata
        rw [h.calm.askAvail]
        dsimp only
        rw [h.calm.serAvail, h.space, if_neg (fun x => by omega)]
      have e : actCiprecvdata d = d := by
        unfold actCiprecvdata
        rw [if_neg hd, if_pos h1', e1]; rfl
      rw [if_neg h2, e]
      refine ⟨hi, cs, hl, ?_, fun _ => hf⟩
      show Chat _ _ _ _ (T ++ []) _ _
      rw [List.append_nil]
      exact h
  · have e : actCiprecvdata d = { d with snd := .connected } := by
      unfold actCiprecvdata
      rw [if_neg hd, if_neg (by rw [h.rcv]; exact h1)]
    rw [if_neg h1, e]
    refine ⟨hi, cs, hl, ?_, fun _ => hf⟩
    show Chat _ _ _ _ (T ++ []) (at_ .connected .okReply none cs) _
    rw [List.append_nil]
    moved h

/-- The payload. -/
theorem act_pay (hi : d.ipConnected = true) (hl : live cs)
    (h : Chat p c w [] T (at_ .sendDataState .okReply none cs) d) (hf : d.ser.txFree = c.tx) (hb : c.bw ≤ c.wq.length)
    (ht : c.bw ≤ c.tx) : In0 p w .confirm (Mach.paid c) (T ++ [c.wq.take c.bw]) (act d) := by
  have ea : act d = { d.sendData with wait := some b!"SEND OK", snd := .connected } := by unfold act; rw [h.snd]
  rw [ea]
  have h' := h.pay hb (by omega)
  refine ⟨hi, cs, hl, ?_, fun x => by cases x⟩
  show Chat _ _ _ _ _ (at_ .connected .okReply (some b!"SEND OK") cs) _
  movedIn h' h

/-- The block is complete. -/
theorem act_taken (hi : d.ipConnected = true) (hl : live cs)
    (h : Chat p c w [] T (at_ .receiving .okReply none cs) d) (hf : d.ser.txFree = c.tx) (hd : c.rd = 0) :
    In0 p w ((mach old).taken c).spot ((mach old).taken c).conf T (act d) := by
  have ea : act d = actReceiving d := by unfold act; rw [h.snd]
  rw [ea]
  have h0 : ¬ d.bytesToRead > 0 := by rw [h.rd, hd]; omega
  unfold Mach.taken
  by_cases h1 : 0 < c.rcv
  · have e : actReceiving d = { d with snd := .sendCiprecvdata } := by
      unfold actReceiving
      rw [if_neg h0, if_pos (by rw [h.rcv]; exact h1)]
    rw [if_pos h1, e]
    refine ⟨hi, cs, hl, ?_, fun _ => hf⟩
    show Chat _ _ _ _ _ (at_ .sendCiprecvdata .okReply none cs) _
    moved h
  · have e : actReceiving d = { d with snd := .connected } := by
      unfold actReceiving
      rw [if_neg h0, if_neg (by rw [h.rcv]; exact h1)]
    rw [if_neg h1, if_neg (show ¬ (mach old).polls = true by simp [mach]), e]
    refine ⟨hi, cs, hl, ?_, fun _ => hf⟩
    show Chat _ _ _ _ _ (at_ .connected .okReply none cs) _
    moved h

/-- The driver goes on. -/
theorem pro (hF : Fix n cap c) (hs : ∀ b, s ≠ .taking b) (hm : s ≠ .query ∧ s ≠ .count ∧ s ≠ .counted) (h : In0 p w s c T d) :
    In0 p w ((mach old).run s c).spot ((mach old).run s c).conf (T ++ ((mach old).run s c).says) (proceed p d) := by
  obtain ⟨hi, cs, hl, hc, hf⟩ := h
  have f5 := hF.2.2.2.1
  cases s with
  | ready => rw [proceed_act hc rfl rfl (by rw [hf rfl]; omega)]; exact act_ready hF hi hc (hf rfl)
  | ask => rw [proceed_act hc rfl rfl (by rw [hf rfl]; omega)]; exact act_ask hF hi hl hc (hf rfl)
  | taking b => exact absurd rfl (hs b)
  | prompt => rw [proceed_wait hc (.inl (by simp [spotSt]))]; exact ⟨hi, cs, hl, by simpa [Mach.run] using hc, by simp [Mach.run, free]⟩
  | confirm => rw [proceed_wait hc (.inl (by simp [spotSt]))]; exact ⟨hi, cs, hl, by simpa [Mach.run] using hc, by simp [Mach.run, free]⟩
  | asked k => rw [proceed_wait hc (.inr (by simp [spotSt]))]; exact ⟨hi, cs, hl, by simpa [Mach.run] using hc, by simp [Mach.run, free]⟩
  | taken => rw [proceed_wait hc (.inl (by simp [spotSt]))]; exact ⟨hi, cs, hl, by simpa [Mach.run] using hc, by simp [Mach.run, free]⟩
  | query => exact absurd rfl hm.1
  | count => exact absurd rfl hm.2.1
  | counted => exact absurd rfl hm.2.2

/-! ### Lines -/

/-- Lines that are not about the current command. -/
def Aside (l : List Byte) : Prop :=
  ¬ b!"OK" <+: l ∧ Clear errorsEsp l ∧ ¬ b!"SEND FAIL" <+: l ∧ ¬ b!"+CIPRECVDATA" <+: l ∧ ¬ b!">" <+: l ∧ ¬ b!"SEND OK" <+: l

theorem parse_aside (hl : LineDone g l) (ha : Aside l)
    (hw : g.wait = none ∨ g.wait = some b!"OK" ∨ g.wait = some b!">" ∨ g.wait = some b!"SEND OK")
    (hr : g.rep = .okReply ∨ g.rep = .waitCiprecvdata) : parseLine p g = (checkState p g, false) := by
  obtain ⟨a1, a2, a3, a4, a5, a6⟩ := ha
  refine parseLine_eq (a := g) (isError_clear hl a2) (sendFail_clear hl a3) ?_ ?_
  · rcases hw with hw | hw | hw | hw
    · exact parseWait_none hw
    · exact parseWait_clear hl hw (by decide) a1
    · exact parseWait_clear hl hw (by decide) a5
    · exact parseWait_clear hl hw (by decide) a6
  · rcases hr with hr | hr
    · exact parseReply_ok hr
    · unfold parseReply
      rw [hr]

theorem spot_wait (cs : ConnState) (s : Spot) :
    ((spotSt cs s).wait = none ∨ (spotSt cs s).wait = some b!"OK" ∨ (spotSt cs s).wait = some b!">" ∨ (spotSt cs s).wait = some b!"SEND OK") ∧
    ((spotSt cs s).rep = .okReply ∨ (spotSt cs s).rep = .waitCiprecvdata) ∧
    Snd.connected.idx ≤ (spotSt cs s).snd.idx ∧ (spotSt cs s).disc = false := by
  cases s <;> simp [spotSt, Snd.idx]

/-- A line that is not about the current command. -/
theorem hear_aside (hF : Fix n cap c) (h : In0 p w s c T d) (hs : ∀ b, s ≠ .taking b) {v : List Byte} (hv0 : v ≠ [])
    (hl : IsLine (c.part ++ v)) (ha : Aside (c.part ++ v)) :
    ∃ g, In0 p w s (c.mid []) T g ∧ LineDone g (c.part ++ v) ∧ Snd.connected.idx ≤ g.snd.idx ∧ run p (hearing d n v) true = proceed p (checkState p g) ∧
      Behind p v c.rx (hearing d n v) (checkState p g) := by
  obtain ⟨f2, f3, f4, f5, f6, f7, f8, f11⟩ := hF
  obtain ⟨hi, cs, hv, hc, hf⟩ := h
  obtain ⟨t, ht, t1, t2, t3⟩ := hl.text
  have hlen := hl.len
  rw [ht, List.length_append, List.length_singleton] at hlen
  obtain ⟨w1, w2, w3, w4⟩ := spot_wait cs s
  obtain ⟨g, g1, g2, g3, g4, e, hB⟩ := run_heardEnd (p := p) f2 hc ht hv0 (w2.imp id fun x => ⟨x, ht ▸ ha.2.2.2.1⟩) f7 f3 hlen t1 t2 (.inl rfl)
  rw [← ht] at g2
  have ep := parse_aside (p := p) g2 ha (by rw [g1.wait]; exact w1) (by rw [g1.rep]; exact w2)
  rw [ep] at e hB
  exact ⟨g, ⟨g4.trans hi, cs, hv, g1, fun _ => g3⟩, g2, by rw [g1.snd]; exact w3, e, hB rfl⟩

/-- The awaited line `OK`, or the prompt. -/
theorem hear_good (hF : Fix n cap c) {q : St Snd Rep} {v t : List Byte} {z : Byte} (hv' : c.part ++ v = t ++ [z]) (hv0 : v ≠ [])
    (hi : d.ipConnected = true)
    (hc : Chat p c w [] T q d) {x : List Byte} (hw : q.wait = some x) (hr : q.rep = .okReply) (hq : q.ask = false) (h0 : (0 : Byte) ∉ x)
    (hlen : t.length + 1 ≤ 60) (h1 : nl ∉ t) (h2 : gt ∉ t) (hz : z = nl ∨ z = gt) (hp : x <+: t ++ [z])
    (ha : Clear [b!"+IPD", b!"CLOSED", b!"WIFI DISCONNECT"] (t ++ [z])) (he : Clear errorsEsp (t ++ [z])) (hsf : ¬ b!"SEND FAIL" <+: t ++ [z]) :
    ∃ g, g.ipConnected = true ∧ Chat p (c.mid []) w [] T { q with wait := none } g ∧ g.ser.txFree = c.tx ∧
      run p (hearing d n v) true = proceed p g ∧ proceed p g = act g ∧ Behind p v c.rx (hearing d n v) g := by
  obtain ⟨f2, f3, f4, f5, f6, f7, f8, f11⟩ := hF
  obtain ⟨g, g1, g2, g3, g4, e, hB⟩ := run_heardEnd (p := p) f2 hc hv' hv0 (.inl hr) f7 f3 hlen h1 h2 hz
  have hg2 : Chat p (c.mid []) w [] T { q with wait := none } ({ g with wait := none } : D) :=
    (g1.set ({ g with wait := none } : D) rfl rfl rfl g1.calm.lineRead).at (by
      show (⟨g.snd, g.rep, none, g.cs, g.disconnectPending, g.connectPending, decide (g.rssi = int16Max)⟩ : St _ _) = _
      simp [g1.snd, g1.cs, g1.disc, g1.conn, g1.rep, g1.ask])
  have ep : parseLine p g = ({ g with wait := none }, false) := by
    rw [parseLine_eq (isError_clear g2 he) (sendFail_clear g2 hsf) (parseWait_good g2 (g1.wait.trans hw) h0 hp) (parseReply_ok (g1.rep.trans hr)),
    checkState_clear (d := { g with wait := none }) (l := t ++ [z]) ⟨g2.text, g2.zero, g2.fill⟩ ha]
  rw [ep] at e hB
  exact ⟨{ g with wait := none }, g4.trans hi, hg2, g3, e, proceed_act hg2 rfl hr (by show 20 ≤ g.ser.txFree; omega) hq, hB rfl⟩

/-! ### A block of data -/

theorem proceed_take {b : List Byte} (ht : 20 ≤ c.tx) (h : Take c (ChatExt p w) t0 T (at_ .receiving .okReply none cs) b d) :
    proceed p d = actReceiving d := by
  obtain ⟨s, h1⟩ := h.talk
  have hsp : d.serSpace = c.tx := by
    unfold Dev.serSpace; rw [h.ser.spaceAvailable]; exact h.free
  have hask : d.askSpace = d := by
    unfold Dev.askSpace; rw [h.ser.spaceAvailable]
  have hw : d.wait = none := h1.wait
  have hr : d.rep = .okReply := h1.rep
  have hsnd : d.snd = .receiving := h1.snd
  have hrs : d.rssi ≠ int16Max := fun x => by rw [h1.ask] at x; simp at x
  have hlr := h.lineRead
  unfold proceed
  rw [hw, hr, if_neg (by simp), hsp, if_neg (by omega), hask]
  unfold sendNext
  rw [if_neg (fun x => hrs x.1), if_neg (fun x => by rw [hlr] at x; cases x.2.2)]
  unfold act
  rw [hsnd]

theorem run_take {b : List Byte} (h : Take c (ChatExt p w) t0 T (at_ .receiving .okReply none cs) b d) :
    run p d true = proceed p d := by
  obtain ⟨s, h1⟩ := h.talk
  have a1 : d.isOpen = true := h1.calm.isOpen
  have a3 : d.resetPending = false := h1.calm.reset
  have a4 : d.disconnectPending = false := h1.disc
  have e : run p d true = work p d := by
    unfold run
    rw [a1, a3]; rfl
  have ef : d.fillLine (lineStop d.typ d.rep) = (d, false) := by
    unfold Dev.fillLine
    rw [if_neg (by rw [h.lineRead]; simp)]
  rw [e]
  unfold work fillLineBuffer
  rw [ef]
  show proceed p (flushIfDisconnecting d) = _
  unfold flushIfDisconnecting
  rw [if_neg (fun x => by rw [a4] at x; cases x.1)]

/-- A part of the block is there. -/
theorem take_wait {b : List Byte} (ht : 20 ≤ c.tx) (h : Take c (ChatExt p w) t0 T (at_ .receiving .okReply none cs) b d)
    (hb : b.length < c.rd) : proceed p d = d := by
  obtain ⟨s, h1⟩ := h.talk
  have hd : d.bytesToRead = c.rd := h1.rd
  rw [proceed_take ht h]
  unfold actReceiving
  rw [if_pos (by rw [hd]; omega), h.wait hb]; simp

theorem complete (h : Chat p c w t0 T (at_ .receiving .okReply none cs) d) :
    Chat p c w t0 T (at_ .receiving .okReply (some b!"OK") cs) ({ d with rep := .okReply, wait := some okStr } : D) := by
  moved h

/-- Bytes arrive. -/
theorem hear_bytes (hF : Fix n cap c) {b : List Byte} (h : In1 p w b c T d) (hb : b.length + l.length ≤ c.rd)
    (h0 : 0 < c.rd) (h1 : c.rq.length + c.rd ≤ c.rcap) (h2 : c.rd ≤ c.rx) :
    In p w n cap (Mach.gets c b l).spot (Mach.gets c b l).conf T (run p (hearing d n l) true) := by
  have hF' := hF
  obtain ⟨f2, f3, f4, f5, f6, f7, f8, f11⟩ := hF
  obtain ⟨hi, cs, hv, hc⟩ := h
  have hh := hc.hearing f7 l (by omega)
  rw [run_take hh]
  unfold Mach.gets
  by_cases he : (b ++ l).length = c.rd
  · rw [if_pos he]
    obtain ⟨a1, a2, a3, a4⟩ := hh.all he h1
    have hd : (hearing d n l).bytesToRead = c.rd := by obtain ⟨s, x⟩ := hh.talk; exact x.rd
    have a5 : (hearing d n l).receive.1.typ = .tcp := a2.typ.trans f2
    have e : proceed p (hearing d n l) = { (hearing d n l).receive.1 with rep := .okReply, wait := some okStr } := by
      rw [proceed_take (by omega) hh]
      unfold actReceiving
      rw [if_pos (by rw [hd]; exact h0)]
      dsimp only
      rw [if_pos ⟨a1, a5⟩]
    rw [e]
    exact ⟨hF', a4.trans hi, cs, hv, complete a2, fun x => by cases x⟩
  · rw [if_neg he]
    rw [take_wait (by omega) hh (by rw [List.length_append] at he ⊢; omega)]
    exact ⟨hF', hi, cs, hv, hh⟩

/-- The modem says how many bytes it gives. -/
theorem hear_header (hF : Fix n cap c) {j k : Nat} (hj : 0 < j) (hjr : j ≤ c.rcv) (hd : c.rd = 0) (hjk : j ≤ k) (hk : k ≤ cap)
    (hrc : c.rcv < 18446744073709551616) {v : List Byte} (hv0 : v ≠ [])
    (hv' : (tongueEsp old).header j (k - j) = c.part ++ v) (h : In0 p w (.asked j) c T d) :
    In1 p w [] { c.mid [] with rcv := c.rcv - j, rd := j } T (run p (hearing d n v) true) ∧
      Behind p v c.rx (hearing d n v) (run p (hearing d n v) true) := by
  obtain ⟨f2, f3, f4, f5, f6, f7, f8, f11⟩ := hF
  obtain ⟨hi, cs, hv, hc, hf⟩ := h
  have l1 : (decimals j).length ≤ 10 := decimals_length (by omega) (by omega)
  have el : ∃ y z : Byte, ((y = 44 ∧ z = 58) ∨ (y = 58 ∧ z = 44)) ∧
      (tongueEsp old).header j (k - j) = b!"+CIPRECVDATA" ++ [y] ++ decimals j ++ [z] := by
    cases old
    · exact ⟨44, 58, .inl ⟨rfl, rfl⟩, by simp [tongueEsp]⟩
    · exact ⟨58, 44, .inr ⟨rfl, rfl⟩, by simp [tongueEsp]⟩
  obtain ⟨y, z, hyz, el⟩ := el
  rw [el] at hv'
  obtain ⟨g, g1, g2, g3, g4, e, hB⟩ := run_header (p := p) f2 hc hv'.symm hv0 rfl f7 f3 hyz l1
  rw [e]
  have hpre : b!"+CIPRECVDATA" <+: b!"+CIPRECVDATA" ++ [y] ++ decimals j ++ [z] :=
    ⟨[y] ++ decimals j ++ [z], by simp⟩
  have hst : strtol p.long64 (g.line.drop 13) = j :=
    g2.strtol p.long64 (b!"+CIPRECVDATA" ++ [y]) [z] j (by simp) (by omega) (by rcases hyz with ⟨-, rfl⟩ | ⟨-, rfl⟩ <;> decide)
  have hrep : parseReply p g =
      { g with bytesToReceive := c.rcv - j, bytesToRead := j, lineRead := false, rep := .okReply, snd := .receiving } := by
    unfold parseReply parseCiprecvdata
    rw [g1.rep]
    simp only [g2.has_true (by decide) hpre, if_true, hst, toInt_small (show j < 2147483648 by omega)]
    rw [addSize_small (by rw [g1.rd, hd]; omega), subSize_small (by rw [g1.rcv]; exact hjr) (by rw [g1.rcv]; exact hrc), g1.rcv, g1.rd, hd,
      Nat.zero_add]
  have h1 : Take { c.mid [] with rcv := c.rcv - j, rd := j } (ChatExt p w) [] T (at_ .receiving .okReply none cs) []
      ({ g with bytesToReceive := c.rcv - j, bytesToRead := j, lineRead := false, rep := .okReply, snd := .receiving } : D) := by
    have h' := g1.rdSet (c.rcv - j) j
    have h2 : Chat p { c.mid [] with rcv := c.rcv - j, rd := j } w [] T (at_ .receiving .okReply none cs)
        ({ g with bytesToReceive := c.rcv - j, bytesToRead := j, rep := .okReply, snd := .receiving } : D) := by
      refine Talk.setAt h' _ ?_ ?_ ?_ ?_ ?_
      · rfl
      · rfl
      · rfl
      · exact g1.calm.lineRead
      · simp [Dev.st, g1.cs, g1.disc, g1.conn, g1.wait, g1.ask, spotSt]
    exact Take.start h2 g3
  have ep : parseLine p g = ({ g with bytesToReceive := c.rcv - j, bytesToRead := j, lineRead := false, rep := .okReply, snd := .receiving }, false) := by
    rw [parseLine_eq (isError_clear g2 (clear_of hpre (by decide))) (sendFail_clear g2 (not_prefix_of hpre (by decide) (by decide))) (parseWait_none g1.wait) hrep, checkState_clear
      (d := { g with bytesToReceive := c.rcv - j, bytesToRead := j, lineRead := false, rep := .okReply, snd := .receiving })
      ⟨g2.text, g2.zero, g2.fill⟩ (by
      intro a ha
      simp only [List.mem_cons, List.not_mem_nil, or_false] at ha
      rcases ha with rfl | rfl | rfl
      · exact not_prefix_of hpre (by decide) (by decide)
      · exact not_prefix_of hpre (by decide) (by decide)
      · exact not_prefix_of hpre (by decide) (by decide))]
  rw [ep] at hB ⊢
  simp only [Bool.false_eq_true, if_false]
  rw [take_wait (by show 20 ≤ c.tx; omega) h1 hj]
  exact ⟨⟨g4.trans hi, cs, hv, h1⟩, hB rfl⟩

/-! ### The driver follows the machine -/

theorem aside_of (hl : IsLine l) (h : Clear meaningEsp l) : Aside l ∧ Clear [b!"+IPD", b!"CLOSED", b!"WIFI DISCONNECT"] l := by
  refine ⟨⟨h _ (by simp [meaningEsp]), fun x hx => h x (by simp [meaningEsp, hx]), h _ (by simp [meaningEsp]), h _ (by simp [meaningEsp]),
    Sim800.not_gt hl, h _ (by simp [meaningEsp])⟩, fun x hx => h x ?_⟩
  simp only [List.mem_cons, List.not_mem_nil, or_false] at hx
  rcases hx with rfl | rfl | rfl <;> simp [meaningEsp]

theorem In0.typ (h : In0 p w s c T d) (hF : Fix n cap c) : d.typ = .tcp := by
  obtain ⟨hi, cs, hv, hc, hf⟩ := h
  exact hc.typ.trans hF.1

theorem exec_hear0 (d : D) (l : List Byte) : exec (step p) d (hear n l 0) = run p (hearing d n l) true :=
  exec_hear step_irq d l 0

theorem In.zero (hF : Fix n cap c) (hs : ∀ b, s ≠ .taking b) (h : In0 p w s c T d) : In p w n cap s c T d := by
  cases s <;> first | exact ⟨hF, h⟩ | exact absurd rfl (hs _)

theorem In.get0 (hs : ∀ b, s ≠ .taking b) (h : In p w n cap s c T d) : In0 p w s c T d := by
  cases s <;> first | exact h.2 | exact absurd rfl (hs _)

theorem not_taking_of {M : Mach} {ph : Phase} (h : Meet M s c ph) (hb : ph.busy = false) : ∀ b, s ≠ .taking b := by
  rintro b rfl
  revert h hb
  cases ph <;> simp [Meet, Phase.busy]

theorem meet_no {ph : Phase} (h : Meet (mach old) s c ph) : s ≠ .query ∧ s ≠ .count ∧ s ≠ .counted := by
  refine ⟨?_, ?_, ?_⟩ <;> rintro rfl <;> cases ph <;> simp [Meet, mach] at h

theorem run_not_taking (hs : ∀ b, s ≠ .taking b) : ∀ b, ((mach old).run s c).spot ≠ .taking b := by
  intro b
  cases s <;> simp only [Mach.run, Mach.ready, Mach.ask] <;> first | exact absurd rfl (hs _) | (repeat' split) <;> simp | simp

theorem run_fix (hF : Fix n cap c) : Fix n cap ((mach old).run s c).conf := by
  cases s <;> simp only [Mach.run, Mach.ready, Mach.ask] <;> first | (repeat' split) <;> exact hF | exact hF

theorem In.pro (hF : Fix n cap c) (hs : ∀ b, s ≠ .taking b) (hm : s ≠ .query ∧ s ≠ .count ∧ s ≠ .counted) (h : In0 p w s c T d) :
    In p w n cap ((mach old).run s c).spot ((mach old).run s c).conf (T ++ ((mach old).run s c).says) (proceed p d) :=
  In.zero (run_fix hF) (run_not_taking hs) (Espressif.pro hF hs hm h)

theorem ready_same (c : Conf) : (mach old).ready c = (mach old).run .ready c := rfl
theorem ask_same (c : Conf) : (mach old).ask c = (mach old).run .ask c := rfl

theorem good (hF : Fix n cap c) : (mach old).Good c := by
  obtain ⟨f2, f3, f4, f5, f6, f7, f8, f11⟩ := hF
  refine ⟨fun _ => rfl, fun m hm => ?_, fun m k hm => ?_, fun m k hm => ?_, by show 30 < c.rx; omega, by omega, show 0 < maxRx by decide, f8, fun k => ?_,
    by cases old <;> decide, (by intro h; cases h), fun j k => ?_⟩
  · simp [Modem.listen, hm]
  · have h1 : (tongueEsp old).ask k ≠ (tongueEsp old).query := fun h => by simp [tongueEsp] at h
    have h2 : readNumber 15 ((tongueEsp old).ask k) = k := readNumber_eq b!"AT+CIPRECVDATA=" b!"\r\n" k (by decide)
    show Modem.listen (tongueEsp old) m ((tongueEsp old).ask k) = _
    unfold Modem.listen
    rw [hm]
    simp only [h1, if_false, show (tongueEsp old).askAt = 15 from rfl, h2, if_true]
  · have h1 : (tongueEsp old).send k ≠ (tongueEsp old).query := fun h => by simp [tongueEsp] at h
    have h3 : ∀ j, (tongueEsp old).send k ≠ (tongueEsp old).ask j := fun j h => by
      have := congrArg (List.take 7) h
      simp [tongueEsp] at this
    have h2 : readNumber 11 ((tongueEsp old).send k) = k := readNumber_eq b!"AT+CIPSEND=" b!"\r\n" k (by decide)
    show Modem.listen (tongueEsp old) m ((tongueEsp old).send k) = _
    unfold Modem.listen
    rw [hm]
    simp only [h1, h3, if_false, show (tongueEsp old).sendAt = 11 from rfl, h2, if_true]
  · simp [mach, tongueEsp]
  · cases old <;> simp [mach, tongueEsp]

/-- What precedes the end of a text of the modem. -/
theorem stops (hF : Fix n cap c) (hc : Chat p c w [] T (spotSt cs s) d) {v x : List Byte} (h : Telling (mach old) cap meaningEsp s (v ++ x)) (hx : x ≠ []) :
    v.length < 60 ∧ ∀ m a y b, v = a ++ y :: b → m.cells.take (a.length + 1) = a ++ [y] → lineStop d.typ d.rep m (a.length + 1) y = none := by
  obtain ⟨f2, f3, f4, f5, f6, f7, f8, f11⟩ := hF
  have key : Worded (v ++ x) → ¬ b!"+CIPRECVDATA" <+: v ++ x →
      v.length < 60 ∧ ∀ m a y b, v = a ++ y :: b → m.cells.take (a.length + 1) = a ++ [y] → lineStop d.typ d.rep m (a.length + 1) y = none := by
    intro h1 h2
    obtain ⟨k1, k2, k3⟩ := h1.front hx
    refine ⟨k3, fun m a y b hab hm => stop_other f2 hc ((spot_wait cs s).2.1.imp id fun z => ⟨z, h2⟩) k1 k2 m a y b hab ?_ hm⟩
    rw [hab] at k3; simp at k3; omega
  generalize e : v ++ x = l at h key
  cases h with
  | noise h1 h2 => exact key h1.worded (h2 _ (by simp [meaningEsp]))
  | @announce k h1 =>
    have l1 : (decimals k).length ≤ 10 := decimals_length (by omega) (by omega)
    obtain ⟨i1, i2, i3⟩ := Sim800.isLine_nums (pre := b!"+IPD,") (n := k) (rest := b!"\r") (by decide) (by decide) (by decide) (by decide)
      (by decide) (by decide) (by simp; omega)
    refine key ⟨_, nl, by simp [mach, tongueEsp, nl], i1, i2, .inl rfl, i3⟩ ?_
    have hpre : b!"+IPD" <+: (mach old).t.announce k := ⟨b!"," ++ decimals k ++ b!"\r\n", by simp [mach, tongueEsp]⟩
    exact not_prefix_of hpre (by decide) (by decide)
  | prompt => exact key ⟨[], gt, rfl, by decide, by decide, .inr rfl, by decide⟩ (by decide)
  | confirm => exact key ⟨b!"SEND OK\r", nl, rfl, by decide, by decide, .inl rfl, by decide⟩ (by show ¬ b!"+CIPRECVDATA" <+: b!"SEND OK\r\n"; decide)
  | done => exact key ⟨b!"OK\r", nl, rfl, by decide, by decide, .inl rfl, by decide⟩ (by decide)
  | count h => cases h
  | @header j k hs h1 =>
    subst hs
    have l1 : (decimals j).length ≤ 10 := decimals_length (by omega) (by omega)
    have el : ∃ y z : Byte, ((y = 44 ∧ z = 58) ∨ (y = 58 ∧ z = 44)) ∧
        (mach old).t.header j k = b!"+CIPRECVDATA" ++ [y] ++ decimals j ++ [z] := by
      cases old
      · exact ⟨44, 58, .inl ⟨rfl, rfl⟩, by simp [mach, tongueEsp]⟩
      · exact ⟨58, 44, .inr ⟨rfl, rfl⟩, by simp [mach, tongueEsp]⟩
    obtain ⟨y, z, hyz, el⟩ := el
    rw [el] at e
    have h4 := List.dropLast_concat_getLast hx
    have h5 : v ++ x.dropLast ++ [x.getLast hx] = b!"+CIPRECVDATA" ++ [y] ++ decimals j ++ [z] := by rw [List.append_assoc, h4, e]
    have h6 := List.append_inj_left' h5 rfl
    refine ⟨?_, fun m a y' b hab _ => stop_header (hc.typ.trans f2) hc.rep hyz l1 m a y' (b ++ x.dropLast) ?_⟩
    · have := congrArg List.length h6
      simp at this; omega
    · rw [← h6, hab]; simp

theorem follows (p : Platform) (w : Option Wifi) (old : Bool) (n cap : Nat) :
    Follows (mach old) ⟨tongueEsp old, n, cap, meaningEsp⟩ (step p) (In p w n cap) where
  tongue := rfl
  good h := good h.1
  seen := by
    intro s c T d h
    obtain ⟨hF, h⟩ := h
    cases s with
    | taking b =>
      obtain ⟨hi, cs, hl, hc⟩ := h
      obtain ⟨x, hc⟩ := hc.talk
      have h := Talk.seen hc hl
      exact ⟨h.utter, h.whole, h.took, h.gave, h.conn, h.wq, h.rq, h.rd⟩
    | _ =>
      obtain ⟨hi, cs, hl, hc, hf⟩ := h
      exact Talk.seen hc hl
  run := by
    intro s c T d ph h hm
    show In p w n cap _ _ _ (run p d true)
    by_cases hs : ∀ b, s ≠ .taking b
    · obtain ⟨hi, cs, hl, hc, hf⟩ := In.get0 hs h
      rw [run_calm' hc (spot_wait cs s).2.2.2]
      exact In.pro h.1 hs (meet_no hm) ⟨hi, cs, hl, hc, hf⟩
    · cases s with
      | taking b =>
        obtain ⟨hF, hi, cs, hl, hc⟩ := h
        have hb : b.length < c.rd := by
          revert hm
          cases ph <;> simp only [Meet] <;> first | exact False.elim | skip
          rintro ⟨h1, h2, -⟩
          have := List.length_pos_iff.mpr h1
          omega
        rw [run_take hc, take_wait (by have := hF.2.2.2.1; omega) hc hb]
        exact ⟨hF, hi, cs, hl, by show Take _ _ _ (T ++ []) _ _ _; rw [List.append_nil]; exact hc⟩
      | _ => exact absurd (by simp) hs
  more := by
    intro s c T d m a v x m' h hf ha hs hx0
    obtain ⟨h1, h2⟩ := hf.says ha hs
    obtain ⟨hi, cs, hl, hc, hf'⟩ := In.get0 h2 h
    obtain ⟨k1, k2⟩ := stops h.1 hc h1 hx0
    obtain ⟨g, g1, g3, g4, e⟩ := run_moreEnd (p := p) hc h.1.2.2.2.2.2.1 h.1.2.1 k1 k2 (spot_wait cs s).2.2.2
    rw [exec_hear0, e]
    exact In.pro (c := c.mid (c.part ++ v)) h.1 h2 (meet_no hf.meet) ⟨g4.trans hi, cs, hl, g1, fun _ => g3⟩
  noise := by
    intro s c T d ph v h hm hb hv0 hl hx
    have hs := not_taking_of hm hb
    obtain ⟨h1, h2⟩ := aside_of hl hx
    obtain ⟨g, g1, g2, g3, e, -⟩ := hear_aside (p := p) h.1 (In.get0 hs h) hs hv0 hl h1
    show In p w n cap _ _ _ (exec (step p) d (hear n v 0))
    rw [exec_hear0, e, checkState_clear g2 h2]
    exact In.pro (c := c.mid []) h.1 hs (meet_no hm) g1
  tell := by
    intro s c T d ph v k h hm hb hk hv0 hv'
    have hs := not_taking_of hm hb
    have l1 : (decimals k).length ≤ 10 := decimals_length (by have := h.1.2.2.2.2.2.2.2; dsimp only at hk; omega) (by omega)
    obtain ⟨i1, i2, i3⟩ := Sim800.isLine_nums (pre := b!"+IPD,") (n := k) (rest := b!"\r") (by decide) (by decide)
      (by decide) (by decide) (by decide) (by decide) (by simp; omega)
    have hv'' : (tongueEsp old).announce k = c.part ++ v := hv'
    have el : (tongueEsp old).announce k = b!"+IPD," ++ decimals k ++ b!"\r" ++ [nl] := by simp [tongueEsp, nl]
    have hpre : b!"+IPD" <+: b!"+IPD," ++ decimals k ++ b!"\r" ++ [nl] := ⟨b!"," ++ decimals k ++ b!"\r" ++ [nl], by simp⟩
    have hl : IsLine ((tongueEsp old).announce k) := by
      rw [el]
      refine ⟨by simp only [List.length_append, List.length_singleton] at i3 ⊢; omega, _, rfl, i1, i2, ?_⟩
      simp [decimals_zero]
    have ha : Aside ((tongueEsp old).announce k) := by
      rw [el]
      exact ⟨not_prefix_of hpre (by decide) (by decide), clear_of hpre (by decide), not_prefix_of hpre (by decide) (by decide),
        not_prefix_of hpre (by decide) (by decide), not_prefix_of hpre (by decide) (by decide), not_prefix_of hpre (by decide) (by decide)⟩
    obtain ⟨g, g1, g2, g3, e, -⟩ := hear_aside (p := p) h.1 (In.get0 hs h) hs hv0 (hv'' ▸ hl) (hv'' ▸ ha)
    show In p w n cap _ _ _ (exec (step p) d (hear n v 0))
    have hst : strtol p.long64 (g.line.drop 5) = k :=
      g2.strtol p.long64 b!"+IPD," b!"\r\n" k (by rw [← hv'', el]; simp [nl]) (by have := h.1.2.2.2.2.2.2.2; dsimp only at hk; omega) (by decide)
    have ec : checkState p g = { g with bytesToReceive := k, dataPending := true } := by
      unfold checkState
      rw [if_pos g3, if_pos ((show strncmpEq g.line.cells b!"+IPD," 4 = g.has b!"+IPD" from rfl).trans
        (g2.has_true (by decide) (by rw [← hv'', el]; exact hpre))), hst, toInt_small (by have := h.1.2.2.2.2.2.2.2; dsimp only at hk; omega)]
      dsimp only
      rw [if_pos (g1.typ h.1), toU64_small (by have := h.1.2.2.2.2.2.2.2; dsimp only at hk; omega)]
    rw [exec_hear0, e, ec]
    obtain ⟨hi, cs, hv, hc, hf⟩ := g1
    exact In.pro (c := (mach old).told (c.mid []) k) h.1 hs (meet_no hm) ⟨hi, cs, hv, (hc.rcvOnly k).dataSet true, hf⟩
  prompt := by
    intro c T d ph v h hm hv0 hv'
    obtain ⟨hF, hi, cs, hl, hc, hf⟩ := h
    obtain ⟨g, g1, g3, g4, e1, e2, -⟩ := hear_good (p := p) hF (v := v) (t := []) (z := gt) hv'.symm hv0 hi hc rfl rfl rfl (by decide) (by decide) (by decide) (by decide) (.inr rfl)
      (by decide) (by unfold Spec.Clear; decide) (by unfold Spec.Clear; decide) (by decide)
    show In p w n cap _ _ _ (exec (step p) d (hear n v 0))
    have hb : c.bw ≤ c.wq.length ∧ c.bw ≤ c.tx - 22 := by
      revert hm
      cases ph <;> simp only [Meet] <;> first | exact False.elim | skip
      rintro ⟨rfl, h1, h2, h3⟩
      exact ⟨h2, h3⟩
    rw [exec_hear0]
    rw [e1, e2]
    exact ⟨hF, act_pay g1 hl g3 g4 hb.1 (by show c.bw ≤ c.tx; omega)⟩
  confirm := by
    intro c T d v h hv0 hv'
    obtain ⟨hF, hi, cs, hl, hc, hf⟩ := h
    obtain ⟨g, g1, g3, g4, e1, e2, -⟩ := hear_good (p := p) hF (v := v) (t := b!"SEND OK\r") (z := nl) hv'.symm hv0 hi hc rfl rfl rfl (by decide) (by decide) (by decide) (by decide) (.inl rfl)
      (by decide) (by unfold Spec.Clear; decide) (by unfold Spec.Clear; decide) (by decide)
    show In p w n cap _ _ _ (exec (step p) d (hear n v 0))
    rw [exec_hear0, e1, ready_same]
    exact In.pro (c := c.mid []) hF (by simp) (by simp) ⟨g1, cs, hl, g3, fun _ => g4⟩
  count := by intro c T d v k hp; cases hp
  counted := by intro c T d v hp; cases hp
  header := by
    intro c T d j k ph v h hm hd hjk hrc hk hv0 hv'
    have hb : 0 < j ∧ j ≤ c.rcv := by
      revert hm
      cases ph <;> simp only [Meet] <;> first | exact False.elim | skip
      rintro ⟨rfl, h1, h2, -⟩
      exact ⟨h1, h2⟩
    rw [exec_hear0]
    exact ⟨h.1, (hear_header h.1 hb.1 hb.2 hd hjk hk (by have := h.1.2.2.2.2.2.2.2; dsimp only at hk; omega) hv0 hv' h.2).1⟩
  gets := by
    intro c T d b l ph h hm hb
    have : 0 < c.rd ∧ c.rq.length + c.rd ≤ c.rcap ∧ c.rd ≤ c.rx := by
      revert hm
      cases ph <;> simp only [Meet] <;> first | exact False.elim | skip
      rintro ⟨h1, h2, h3, h4⟩
      have := List.length_pos_iff.mpr h1
      exact ⟨by omega, h3, h4⟩
    rw [exec_hear0]
    exact hear_bytes h.1 h.2 hb this.1 this.2.1 this.2.2
  taken := by
    intro c T d v h hd hv0 hv'
    obtain ⟨hF, hi, cs, hl, hc, hf⟩ := h
    obtain ⟨g, g1, g3, g4, e1, e2, -⟩ := hear_good (p := p) hF (v := v) (t := b!"OK\r") (z := nl) hv'.symm hv0 hi hc rfl rfl rfl (by decide) (by decide) (by decide) (by decide) (.inl rfl)
      (by decide) (by unfold Spec.Clear; decide) (by unfold Spec.Clear; decide) (by decide)
    rw [exec_hear0, e1, e2]
    refine In.zero (by exact hF) ?_ (act_taken g1 hl g3 g4 hd)
    intro b
    simp only [Mach.taken]
    repeat' split
    all_goals simp
  write := by
    intro s c T d bs h
    show ∃ b, In _ _ _ _ _ _ _ (d.common (.write bs))
    by_cases hs : ∀ b, s ≠ .taking b
    · obtain ⟨hi, cs, hl, hc, hf⟩ := In.get0 hs h
      obtain ⟨h1, h2, h3⟩ := hc.write bs
      by_cases hq : (spotSt cs s).cs = .connected
      · rw [if_pos hq] at h1
        exact ⟨_, In.zero (by exact h.1) hs ⟨h3.trans hi, cs, hl, h1, fun x => by rw [h2]; exact hf x⟩⟩
      · rw [if_neg hq] at h1
        refine ⟨[], In.zero (by exact h.1) hs ⟨h3.trans hi, cs, hl, ?_, fun x => by rw [h2]; exact hf x⟩⟩
        rw [List.append_nil, List.append_nil]; exact h1
    · cases s with
      | taking b =>
        obtain ⟨hF, hi, cs, hl, hc⟩ := h
        obtain ⟨b', h1, h2⟩ := hc.write bs
        exact ⟨b', hF, h2.trans hi, cs, hl, h1⟩
      | _ => exact absurd (by simp) hs
  read := by
    intro s c T d k h
    show In _ _ _ _ _ _ _ (d.common (.read k))
    by_cases hs : ∀ b, s ≠ .taking b
    · obtain ⟨hi, cs, hl, hc, hf⟩ := In.get0 hs h
      obtain ⟨h1, h2, h3⟩ := hc.read k
      exact In.zero (by exact h.1) hs ⟨h3.trans hi, cs, hl, h1, fun x => by rw [h2]; exact hf x⟩
    · cases s with
      | taking b =>
        obtain ⟨hF, hi, cs, hl, hc⟩ := h
        exact ⟨hF, hi, cs, hl, hc.read k⟩
      | _ => exact absurd (by simp) hs

/-- The connection was just opened. -/
theorem Up.joined (hF : Fix n cap c) (h : Up p c w [] T d)
    (h1 : c.wq = []) (h2 : c.rq = []) (h3 : c.data = false) (h4 : c.rcv = 0) (h5 : c.rd = 0) (h6 : c.took = []) (h7 : c.gave = []) (h8 : c.part = []) :
    Joined (mach old) ⟨tongueEsp old, n, cap, meaningEsp⟩ (In p w n cap) ⟨d, Modem.fresh, none⟩ := by
  refine ⟨.ready, c, T, ⟨hF, h.2.1, .connected, .inl rfl, h.1, fun _ => h.2.2⟩, ⟨trivial, ?_, ?_, ?_, ?_, fun _ _ => h5, ?_⟩, h8⟩
  · rw [h1, h6]; rfl
  · rw [h2, h7]; rfl
  · exact Nat.zero_le _
  · rw [h4]; exact Nat.zero_le _
  · unfold Fresh
    rw [if_neg (show ¬ (mach old).polls = true by simp [mach])]
    simp [Modem.fresh, h4]

/-- One more `run()` when everything is over. -/
theorem In.up (h : In p w n cap .ready c T d) (hI : c.Idle) :
    Up p c w [] T (step p d (.run true)) := by
  obtain ⟨hF, hi, cs, hl, hc, hf⟩ := h
  show Up _ _ _ _ _ (run p d true)
  have hf := hf rfl
  rw [run_calm' hc rfl, proceed_act hc rfl rfl (by rw [hf]; have := hF.2.2.2.1; omega)]
  have := act_stay hI hc hi
  exact ⟨this.1, this.2.1, by rw [this.2.2]; exact hf⟩

end Espressif
end Verif
