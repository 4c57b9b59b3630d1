import Verif.Lemmas.Since

/-! The SIM7x00 driver does not connect by itself. -/

namespace Verif.Sim7x00

open Dev

/-- No connection exists, is being made, or was asked for. -/
structure Rest (d : D) : Prop where
  snd : d.snd = .notConnected ∨ d.snd = .serialError
  conn : d.connectPending = false
  rep : d.rep = .okReply ∨ d.rep = .csq ∨ d.rep = .requestID

/-- Commands that have nothing to do with connections. -/
def other : List (List Byte) :=
  [b!"AT+CSQ", b!"AT+CGMI", b!"AT+CGMM", b!"AT+CGSN", b!"AT+CIMI", b!"AT+CICCID", b!"AT+CRESET"]

/-- Neither a connection command nor payload. -/
def restOk : Ev → Bool
  | .cmd w _ => other.contains w
  | .pay _ => false
  | .data _ => false
  | _ => true

abbrev RestSince (base : List Ev) : D → Prop := Since base (· == .apiConnect) restOk Rest

theorem Rest.same {d e : D} (h : Rest d) (h1 : e.snd = d.snd := by rfl)
    (h2 : e.connectPending = d.connectPending := by rfl) (h3 : e.rep = d.rep := by rfl) : Rest e :=
  ⟨by rw [h1]; exact h.snd, by rw [h2]; exact h.conn, by rw [h3]; exact h.rep⟩

theorem rest_calls (base : List Ev) : Calls (RestSince base) where
  io _ _ _ _ _ h := h.silent rfl fun x => x.same
  isOpen _ _ h := h.silent rfl fun x => x.same
  host _ _ _ _ h := h.silent rfl fun x => x.same
  conn _ h _ _ := h.spoil .apiConnect rfl (by simp)
  disc0 _ h _ := h.more [.apiDisconnect] rfl fun _ x => ⟨x.same, rfl⟩
  disc _ h _ := h.more [.apiDisconnect] rfl fun _ x => ⟨x.same, rfl⟩
  write0 _ h _ := h.more [_] rfl fun _ x => ⟨x.same, rfl⟩
  write _ _ h _ := h.more [_] rfl fun _ x => ⟨x.same, rfl⟩
  read _ _ h := h.more [_] rfl fun _ x => ⟨x.same, rfl⟩
  rssi _ h := h.silent rfl fun x => x.same
  userTx _ _ _ _ h := h.more [_] rfl fun _ x => ⟨x.same, rfl⟩
  userRx _ _ _ _ h := h.more [_] rfl fun _ x => ⟨x.same, rfl⟩

theorem rest_own (base : List Ev) : Own (RestSince base) where
  reset _ h := h.more [.apiReset] rfl fun _ _ => ⟨⟨Or.inl rfl, rfl, Or.inl rfl⟩, rfl⟩
  ext _ _ h := h.silent rfl fun x => x.same
  lock _ h _ _ := h.silent rfl fun x => x.same
  unlock _ h := h.silent rfl fun x => x.same

theorem rest_line (p : Platform) {d : D} (h : Rest d) : Rest (parseLine p d).1 := by
  have hw : Rest (parseWait d).1 := by
    unfold parseWait
    (repeat' split) <;> exact h.same
  have hr : ∀ e : D, Rest e → Rest (parseReply p e).1 := by
    intro e he
    have ok : ∀ f : D, f.snd = e.snd → f.connectPending = e.connectPending → f.rep = .okReply → Rest f :=
      fun f h1 h2 h3 => ⟨by rw [h1]; exact he.snd, by rw [h2]; exact he.conn, Or.inl h3⟩
    rcases he.rep with hx | hx | hx <;> simp only [parseReply, hx]
    · exact he
    · split
      · exact ok _ (by simp) (by simp) rfl
      · exact he.same (by simp) (by simp) (by simp)
    · split
      · exact ok _ (by simp) (by simp) rfl
      · exact he.same (by simp) (by simp) (by simp)
  have hc : ∀ e : D, Rest e → Rest (checkState e) := by
    intro e he
    unfold checkState
    split
    · exact he.same (by simp) (by simp) (by simp)
    · exact he
  unfold parseLine
  dsimp only
  split
  · exact hw
  · split
    · exact hr _ hw
    · exact hc _ (hr _ hw)

theorem rest_sections (p : Platform) (base : List Ev) : Sections p (RestSince base) where
  fail d h _ := h.silent rfl fun x => ⟨Or.inr rfl, x.conn, x.rep⟩
  reset d h _ _ := by
    refine h.more [.flush, _, _] (by simp [handleReset]; exact ⟨rfl, rfl⟩) fun _ x => ⟨?_, by simp [restOk, other]⟩
    refine ⟨Or.inl ?_, by simp [handleReset], Or.inl rfl⟩
    simp only [handleReset]
    rcases x.snd with y | y <;> simp [y, Snd.idx]
  line d s m l _ h _ _ _ _ := by
    refine h.more [.line l] (by rw [parseLine_trace]) fun _ x => ⟨rest_line p ?_, rfl⟩
    exact x.same
  drop d h _ _ _ := h.more [_] (by simp; rfl) fun _ x => ⟨x.same, rfl⟩
  csq d h _ _ _ _ _ _ := by
    refine h.more [_, _] (by simp; exact ⟨rfl, rfl⟩) fun _ x =>
      ⟨⟨by simpa using x.snd, by simpa using x.conn, Or.inr (Or.inl rfl)⟩, by simp [restOk, other]⟩
  ident d h _ _ _ _ hq := by
    obtain ⟨w, hm, g1, g2, ht⟩ := SimDev.sendIDRequest_true hq
    refine h.more [.cmd w g1, .arg lineEnd g2] (by simp [ht]) fun _ x =>
      ⟨⟨by simpa using x.snd, by simpa using x.conn, Or.inr (Or.inr rfl)⟩, ?_⟩
    simp only [SimDev.idCommands, iccidCommand, List.mem_cons, List.not_mem_nil, or_false] at hm
    rcases hm with rfl | rfl | rfl | rfl | rfl <;> simp [restOk, other]
  identNone d h hq :=
    h.silent (SimDev.sendIDRequest_false hq).1 fun x => x.same (by simp) (by simp) (by simp)
  act d h _ _ _ _ := by
    refine h.grow (eff_act (x := NoHeader) d (by simp [Clear])) fun x => ?_
    rcases x.snd with y | y
    · have e : act d = ({ d with delay := 10, cs := .notConnected } : D) := by
        simp [act, y, handleConnect, x.conn]
      rw [e]
      exact ⟨x.same, [], by simp, rfl⟩
    · have e : act d = d := by simp only [act, y]
      rw [e]
      exact ⟨x, [], by simp, rfl⟩

/-- No connection is asked for, being made or there. -/
structure Calm (d : D) : Prop where
  rest : Rest d
  reset : d.resetPending = false

theorem Calm.same {d e : D} (h : Calm d) (h1 : e.snd = d.snd := by rfl)
    (h2 : e.connectPending = d.connectPending := by rfl) (h3 : e.rep = d.rep := by rfl)
    (h4 : e.resetPending = d.resetPending := by rfl) : Calm e :=
  ⟨h.rest.same h1 h2 h3, by rw [h4]; exact h.reset⟩

/-- An idle driver is calm or about to start the connection. -/
structure Idle (d : D) : Prop where
  snd : d.cs = .notConnected → d.snd = .notConnected ∨ d.snd = .serialError ∨ d.snd = .connecting
  rep : d.cs = .notConnected → d.rep = .okReply ∨ d.rep = .csq ∨ d.rep = .requestID
  reset : d.cs = .notConnected → d.resetPending = false

theorem Idle.same {d e : D} (h : Idle d) (h0 : e.cs = .notConnected → d.cs = .notConnected := by exact id)
    (h1 : e.snd = d.snd := by rfl) (h2 : e.rep = d.rep := by rfl)
    (h3 : e.resetPending = d.resetPending := by rfl) : Idle e :=
  ⟨fun x => by rw [h1]; exact h.snd (h0 x), fun x => by rw [h2]; exact h.rep (h0 x),
    fun x => by rw [h3]; exact h.reset (h0 x)⟩

theorem Idle.vac {e : D} (h : e.cs ≠ .notConnected) : Idle e :=
  ⟨fun x => absurd x h, fun x => absurd x h, fun x => absurd x h⟩

theorem idle_calls : Calls Idle where
  io _ _ _ _ _ h := h.same
  isOpen _ _ h := h.same
  host _ _ _ _ h := h.same
  conn _ h _ _ := h.same
  disc0 _ h _ := h.same
  disc _ h _ := h.same
  write0 _ h _ := h.same
  write _ _ h _ := h.same
  read _ _ h := h.same
  rssi _ h := h.same
  userTx _ _ _ _ h := h.same
  userRx _ _ _ _ h := h.same

theorem idle_own : Own Idle where
  reset _ _ := ⟨fun _ => Or.inl rfl, fun _ => Or.inl rfl, fun _ => rfl⟩
  ext _ _ h := h.same
  lock _ h _ _ := h.same
  unlock _ h := h.same

/-- Where the idle state comes from. -/
theorem act_idle {d : D} :
    ((act d).snd = .notConnected → d.snd = .notConnected ∨ d.snd = .finalizeDisconnect) ∧
    ((act d).cs = .notConnected → d.cs = .notConnected ∨ d.snd = .notConnected ∨
      d.snd = .finalizeDisconnect) := by
  cases hsnd : d.snd
  case notConnected => simp
  case finalizeDisconnect => simp
  case sendNetopen => simp only [act, hsnd]; split <;> simp [handleDisconnect]; split <;> simp_all
  case sendDnsQuery => simp only [act, hsnd]; split <;> simp_all
  case sendCgsockcont => simp only [act, hsnd, actCgsockcont]; split <;> simp_all
  case sendCipopen =>
    constructor
    · simp [act, hsnd, actCipopen]
    · simp only [act, hsnd, actCipopen]; split <;> simp_all
  case connected =>
    simp only [act, hsnd, actConnected]
    split
    · split
      · simp
      · simp [hsnd]
    · split
      · simp
      · simp [handleDisconnect]; split <;> simp_all
  case sendCiprxget2 =>
    simp only [act, hsnd, actCiprxget2]
    split
    · simp [handleDisconnect]; split <;> simp_all
    · (repeat' split) <;> simp_all
  case receiving =>
    simp only [act, hsnd, actReceiving]
    (repeat' split) <;> simp_all
  case ipUnconnected =>
    simp only [act, hsnd, handleDisconnect, handleConnect]
    (repeat' split) <;> simp_all
  all_goals simp [act, hsnd]

theorem parseLine_cs (p : Platform) (d : D) :
    ((parseLine p d).1.cs = .notConnected → d.cs = .notConnected) ∧
    (parseLine p d).1.connectPending = d.connectPending := by
  have hw : ((parseWait d).1.cs = .notConnected → d.cs = .notConnected) ∧
      (parseWait d).1.connectPending = d.connectPending := by
    unfold parseWait
    (repeat' split) <;> simp
  have hx : ∀ e : D, ((parseReply p e).1.cs = .notConnected → e.cs = .notConnected) ∧
      (parseReply p e).1.connectPending = e.connectPending := by
    intro e
    have hd : (e.parseDnsReply.1.cs = .notConnected → e.cs = .notConnected) := by
      unfold SimDev.parseDnsReply
      dsimp only
      (repeat' split) <;> simp
    unfold parseReply
    split <;> (try dsimp only) <;> (repeat' split) <;> simp_all
  have hc : ∀ e : D, (checkState e).cs = e.cs ∧ (checkState e).connectPending = e.connectPending := by
    intro e
    unfold checkState
    split <;> simp
  unfold parseLine
  dsimp only
  split
  · exact hw
  · split
    · exact ⟨fun h => hw.1 ((hx _).1 h), ((hx _).2).trans hw.2⟩
    · refine ⟨fun h => hw.1 ((hx _).1 ?_), ?_⟩
      · rw [← (hc _).1]; exact h
      · rw [(hc _).2, (hx _).2, hw.2]

/-- Parsing a line in the idle state. -/
theorem parseLine_calm (p : Platform) {d : D} (h : (parseLine p d).1.cs = .notConnected)
    (hr : d.rep = .okReply ∨ d.rep = .csq ∨ d.rep = .requestID) (hs : d.snd.idx < Snd.connected.idx) :
    (parseLine p d).1.snd = d.snd ∧ (parseLine p d).1.resetPending = d.resetPending ∧
    ((parseLine p d).1.rep = d.rep ∨ (parseLine p d).1.rep = .okReply) := by
  have hw : (parseWait d).1.cs = .notConnected → (parseWait d).1.snd = d.snd ∧
      (parseWait d).1.resetPending = d.resetPending ∧ (parseWait d).1.rep = d.rep := by
    unfold parseWait
    (repeat' split) <;> simp
  have hx : ∀ e : D, e.rep = d.rep → e.snd = d.snd →
      (checkState (parseReply p e).1).cs = e.cs ∧ (parseReply p e).2 = false ∧
      (checkState (parseReply p e).1).snd = e.snd ∧
      (checkState (parseReply p e).1).resetPending = e.resetPending ∧
      ((checkState (parseReply p e).1).rep = e.rep ∨ (checkState (parseReply p e).1).rep = .okReply) := by
    intro e he1 he2
    have hck : ∀ f : D, f.snd = e.snd → checkState f = f := by
      intro f hf
      unfold checkState
      rw [if_neg (by rw [hf, he2]; omega)]
    rcases hr with y | y | y <;> rw [y] at he1 <;> simp only [parseReply, he1]
    · rw [hck e rfl]; simp [he1]
    all_goals
      split <;> rw [hck _ (by simp)] <;> simp [he1]
  by_cases h2 : (parseWait d).2 = true
  · simp only [parseLine, h2, if_true] at h ⊢
    have h3 := hw h
    exact ⟨h3.1, h3.2.1, Or.inl h3.2.2⟩
  · have h4 : (parseWait d).1.rep = d.rep ∧ (parseWait d).1.snd = d.snd := by
      unfold parseWait; (repeat' split) <;> simp
    have h5 := hx _ h4.1 h4.2
    have e : parseLine p d = (checkState (parseReply p (parseWait d).1).1, false) := by
      unfold parseLine
      dsimp only
      rw [if_neg h2, if_neg (by rw [h5.2.1]; simp)]
    rw [e] at h ⊢
    dsimp only at h ⊢
    rw [h5.1] at h
    have h3 := hw h
    rw [h3.1, h3.2.1, h3.2.2] at h5
    exact ⟨h5.2.2.1, h5.2.2.2.1, h5.2.2.2.2⟩

theorem Idle.early {d : D} (h : Idle d) (hc : d.cs = .notConnected) : d.snd.idx < Snd.connected.idx := by
  rcases h.snd hc with y | y | y <;> simp [y, Snd.idx]

theorem idle_sections (p : Platform) : Sections p Idle where
  fail _ h _ := ⟨fun _ => Or.inr (Or.inl rfl), fun x => h.rep x, fun x => h.reset x⟩
  reset d h hr _ := by
    refine .vac fun x => ?_
    have := h.reset (by simpa [handleReset] using x)
    rw [hr] at this; cases this
  line d s m l _ h _ _ _ _ := by
    have h' : Idle (d.gotLine s m d.rep l) := h.same
    generalize d.gotLine s m d.rep l = e at h'
    by_cases hc : (parseLine p e).1.cs = .notConnected
    · have h0 := (parseLine_cs p e).1 hc
      obtain ⟨h1, h2, h3⟩ := parseLine_calm p hc (h'.rep h0) (h'.early h0)
      refine ⟨fun _ => by rw [h1]; exact h'.snd h0, fun _ => ?_, fun _ => by rw [h2]; exact h'.reset h0⟩
      rcases h3 with h3 | h3
      · rw [h3]; exact h'.rep h0
      · exact Or.inl h3
    · exact .vac hc
  drop _ h _ _ _ := h.same
  csq _ h hr _ _ _ _ _ :=
    ⟨fun x => by simpa using h.snd (by simpa using x), fun _ => Or.inr (Or.inl rfl),
      fun _ => by simpa using hr⟩
  ident _ h hr _ _ _ _ :=
    ⟨fun x => by simpa using h.snd (by simpa using x), fun _ => Or.inr (Or.inr rfl),
      fun _ => by simpa using hr⟩
  identNone d h _ := h.same (by simp) (by simp) (by simp) (by simp)
  act d h hr hw hp _ := by
    by_cases hc : (Sim7x00.act d).cs = .notConnected
    · rcases act_idle.2 hc with y | y | y
      · rcases h.snd y with z | z | z
        · simp only [act, z]
          unfold handleConnect
          split
          · exact ⟨fun _ => Or.inr (Or.inr rfl), fun _ => Or.inl hp, fun _ => hr⟩
          · exact ⟨fun _ => Or.inl rfl, fun _ => Or.inl hp, fun _ => hr⟩
        · simp only [act, z]; exact h
        · simp [act, z] at hc
      · simp only [act, y]
        unfold handleConnect
        split
        · exact ⟨fun _ => Or.inr (Or.inr rfl), fun _ => Or.inl hp, fun _ => hr⟩
        · exact ⟨fun _ => Or.inl rfl, fun _ => Or.inl hp, fun _ => hr⟩
      · simp only [act, y]
        exact ⟨fun _ => Or.inl rfl, fun _ => Or.inl hp, fun _ => hr⟩
    · exact .vac hc

/-- No connection is asked for, and if the driver is idle it is calm. -/
structure NoAsk (d : D) : Prop where
  conn : d.connectPending = false
  calm : d.cs = .notConnected → Calm d

abbrev NoAskSince (base : List Ev) : D → Prop := Since base (· == .apiConnect) (fun _ => true) NoAsk

theorem NoAsk.same {d e : D} (h : NoAsk d) (h0 : e.cs = .notConnected → d.cs = .notConnected := by exact id)
    (h1 : e.snd = d.snd := by rfl) (h2 : e.connectPending = d.connectPending := by rfl)
    (h3 : e.rep = d.rep := by rfl) (h4 : e.resetPending = d.resetPending := by rfl) : NoAsk e :=
  ⟨by rw [h2]; exact h.conn, fun x => (h.calm (h0 x)).same h1 h2 h3 h4⟩

theorem noAsk_calls (base : List Ev) : Calls (NoAskSince base) where
  io _ _ _ _ _ h := h.silent rfl fun x => x.same
  isOpen _ _ h := h.silent rfl fun x => x.same
  host _ _ _ _ h := h.silent rfl fun x => x.same
  conn _ h _ _ := h.spoil .apiConnect rfl (by simp)
  disc0 _ h _ := h.more [.apiDisconnect] rfl fun _ x => ⟨x.same, rfl⟩
  disc _ h _ := h.more [.apiDisconnect] rfl fun _ x => ⟨x.same, rfl⟩
  write0 _ h _ := h.more [_] rfl fun _ x => ⟨x.same, rfl⟩
  write _ _ h _ := h.more [_] rfl fun _ x => ⟨x.same, rfl⟩
  read _ _ h := h.more [_] rfl fun _ x => ⟨x.same, rfl⟩
  rssi _ h := h.silent rfl fun x => x.same
  userTx _ _ _ _ h := h.more [_] rfl fun _ x => ⟨x.same, rfl⟩
  userRx _ _ _ _ h := h.more [_] rfl fun _ x => ⟨x.same, rfl⟩

theorem noAsk_own (base : List Ev) : Own (NoAskSince base) where
  reset _ h := h.more [.apiReset] rfl fun _ _ =>
    ⟨⟨rfl, fun _ => ⟨⟨Or.inl rfl, rfl, Or.inl rfl⟩, rfl⟩⟩, rfl⟩
  ext _ _ h := h.silent rfl fun x => x.same
  lock _ h _ _ := h.silent rfl fun x => x.same
  unlock _ h := h.silent rfl fun x => x.same

theorem act_connectPending {d : D} (h : d.connectPending = false) : (act d).connectPending = false := by
  cases hsnd : d.snd <;> simp only [act, hsnd, actCgsockcont, actCipopen, actConnected, actCiprxget2,
    actReceiving, handleConnect, handleDisconnect, sendCommand] <;> (repeat' split) <;> simp_all

theorem noAsk_act {d : D} (h : NoAsk d) (hr : d.resetPending = false) (hp : d.rep = .okReply) :
    NoAsk (act d) := by
  refine ⟨act_connectPending h.conn, fun hc => ?_⟩
  have key : d.snd = .notConnected → Calm (act d) := by
    intro y
    have e : act d = ({ d with delay := 10, cs := .notConnected } : D) := by
      simp [act, y, handleConnect, h.conn]
    rw [e]
    exact ⟨⟨Or.inl y, h.conn, Or.inl hp⟩, hr⟩
  rcases act_idle.2 hc with y | y | y
  · have hk := h.calm y
    rcases hk.rest.snd with z | z
    · exact key z
    · simp only [act, z]; exact hk
  · exact key y
  · simp only [act, y]
    exact ⟨⟨Or.inl rfl, h.conn, Or.inl hp⟩, hr⟩

theorem noAsk_line (p : Platform) {d : D} (h : NoAsk d) : NoAsk (parseLine p d).1 := by
  refine ⟨by rw [(parseLine_cs p d).2]; exact h.conn, fun hc => ?_⟩
  have hk := h.calm ((parseLine_cs p d).1 hc)
  have hlt : d.snd.idx < Snd.connected.idx := by
    rcases hk.rest.snd with y | y <;> simp [y, Snd.idx]
  refine ⟨rest_line p hk.rest, ?_⟩
  rw [(parseLine_calm p hc hk.rest.rep hlt).2.1]
  exact hk.reset

theorem noAsk_sections (p : Platform) (base : List Ev) : Sections p (NoAskSince base) where
  fail d h _ := h.silent rfl fun x => ⟨x.conn, fun y =>
    ⟨⟨Or.inr rfl, x.conn, (x.calm y).rest.rep⟩, (x.calm y).reset⟩⟩
  reset d h hr _ := by
    refine h.more [.flush, _, _] (by simp [handleReset]; exact ⟨rfl, rfl⟩) fun _ x => ⟨?_, rfl⟩
    refine ⟨by simp [handleReset], fun y => ?_⟩
    have := (x.calm (by simpa [handleReset] using y)).reset
    rw [hr] at this; cases this
  line d s m l _ h _ _ _ _ := by
    refine h.more [.line l] (by rw [parseLine_trace]) fun _ x => ⟨noAsk_line p ?_, rfl⟩
    exact x.same
  drop d h _ _ _ := h.more [_] (by simp; rfl) fun _ x => ⟨x.same, rfl⟩
  csq d h hr _ _ _ _ _ := by
    refine h.more [_, _] (by simp; exact ⟨rfl, rfl⟩) fun _ x => ⟨⟨by simpa using x.conn, fun y => ?_⟩, rfl⟩
    have z := x.calm (by simpa using y)
    exact ⟨⟨by simpa using z.rest.snd, by simpa using x.conn, Or.inr (Or.inl rfl)⟩, by simpa using hr⟩
  ident d h hr _ _ _ hq := by
    obtain ⟨w, hm, g1, g2, ht⟩ := SimDev.sendIDRequest_true hq
    refine h.more [.cmd w g1, .arg lineEnd g2] (by simp [ht]) fun _ x =>
      ⟨⟨by simpa using x.conn, fun y => ?_⟩, rfl⟩
    have z := x.calm (by simpa using y)
    exact ⟨⟨by simpa using z.rest.snd, by simpa using x.conn, Or.inr (Or.inr rfl)⟩, by simpa using hr⟩
  identNone d h hq :=
    h.silent (SimDev.sendIDRequest_false hq).1 fun x =>
      x.same (by simp) (by simp) (by simp) (by simp) (by simp)
  act d h hr _ hp _ := by
    refine h.grow (eff_act (x := NoHeader) d (by simp [Clear])) fun x => ?_
    obtain ⟨ev, hev⟩ := Since.grows (eff_act (x := NoHeader) d (by simp [Clear]))
    exact ⟨noAsk_act x hr hp, ev, hev, by simp⟩

/-- An idle driver that nobody asked to connect is calm. -/
theorem Idle.noAsk {d : D} (h : Idle d) (hc : d.connectPending = false)
    (hs : d.cs = .notConnected → d.snd ≠ .connecting) : NoAsk d := by
  refine ⟨hc, fun x => ⟨⟨?_, hc, h.rep x⟩, h.reset x⟩⟩
  rcases h.snd x with y | y | y
  · exact Or.inl y
  · exact Or.inr y
  · exact absurd y (hs x)

end Verif.Sim7x00
