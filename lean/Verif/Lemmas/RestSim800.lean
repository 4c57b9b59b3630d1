import Verif.Lemmas.Since

/-! The SIM800 driver does not connect by itself, unless the modem reports an error. -/

namespace Verif.Sim800

open Dev

/-- No connection exists, is being made, or was asked for. -/
structure Rest (d : D) : Prop where
  snd : d.snd = .notConnected ∨ d.snd = .serialError
  conn : d.connectPending = false
  rep : d.rep = .okReply ∨ d.rep = .csq ∨ d.rep = .requestID
  reset : d.resetPending = false

/-- Commands that have nothing to do with connections. -/
def other : List (List Byte) :=
  [b!"AT+CSQ", b!"AT+CGMI", b!"AT+CGMM", b!"AT+CGSN", b!"AT+CIMI", b!"AT+CCID"]

/-- Neither a connection command nor payload. -/
def restOk : Ev → Bool
  | .cmd w _ => other.contains w
  | .pay _ => false
  | .data _ => false
  | _ => true

/-- Lines that make the driver start again. -/
def errorLines : List (List Byte) :=
  [b!"+PDP: DEACT", b!"+CME ERROR", b!"ERROR", b!"+CDNSGIP: 0", b!"0, CONNECT FAIL"]

/-- The application asks for a connection, or the modem reports an error. -/
def restBad : Ev → Bool
  | .apiConnect => true
  | .line l => errorLines.any fun w => w.isPrefixOf l
  | _ => false

abbrev RestSince (base : List Ev) : D → Prop := Since base restBad restOk Rest

theorem line_good {d : D} {l : List Byte} (hl : LineDone d l) (hb : [Ev.line l].any restBad = false)
    {w : List Byte} (hw : w ∈ errorLines) : d.has w = false := by
  cases hh : d.has w with
  | false => rfl
  | true =>
    have h0 : (0 : Byte) ∉ w := by
      have : ∀ w ∈ errorLines, (0 : Byte) ∉ w := by decide
      exact this w hw
    have hp := hl.has h0 hh
    have : (errorLines.any fun w => w.isPrefixOf l) = true :=
      List.any_eq_true.mpr ⟨w, hw, List.isPrefixOf_iff_prefix.mpr hp⟩
    simp only [List.any_cons, List.any_nil, Bool.or_false, restBad] at hb
    rw [this] at hb; cases hb

theorem line_noError {d : D} {l : List Byte} (hl : LineDone d l) (hb : [Ev.line l].any restBad = false) :
    isError d = false := by
  simp only [isError, line_good hl hb (w := b!"+PDP: DEACT") (by decide),
    line_good hl hb (w := b!"+CME ERROR") (by decide), line_good hl hb (w := b!"ERROR") (by decide)]
  rfl

theorem Rest.same {d e : D} (h : Rest d) (h1 : e.snd = d.snd := by rfl)
    (h2 : e.connectPending = d.connectPending := by rfl) (h3 : e.rep = d.rep := by rfl)
    (h4 : e.resetPending = d.resetPending := by rfl) : Rest e :=
  ⟨by rw [h1]; exact h.snd, by rw [h2]; exact h.conn, by rw [h3]; exact h.rep, by rw [h4]; exact h.reset⟩

theorem rest_calls (base : List Ev) : Calls (RestSince base) where
  io _ _ _ _ _ h := h.silent rfl fun x => x.same
  isOpen _ _ h := h.silent rfl fun x => x.same
  host _ _ _ _ h := h.silent rfl fun x => x.same
  conn _ h _ _ := h.spoil .apiConnect rfl rfl
  disc0 _ h _ := h.more [.apiDisconnect] rfl fun _ x => ⟨x.same, rfl⟩
  disc _ h _ := h.more [.apiDisconnect] rfl fun _ x => ⟨x.same, rfl⟩
  write0 _ h _ := h.more [_] rfl fun _ x => ⟨x.same, rfl⟩
  write _ _ h _ := h.more [_] rfl fun _ x => ⟨x.same, rfl⟩
  read _ _ h := h.more [_] rfl fun _ x => ⟨x.same, rfl⟩
  rssi _ h := h.silent rfl fun x => x.same
  userTx _ _ _ _ h := h.more [_] rfl fun _ x => ⟨x.same, rfl⟩
  userRx _ _ _ _ h := h.more [_] rfl fun _ x => ⟨x.same, rfl⟩

theorem rest_own (base : List Ev) : Own (RestSince base) where
  reset _ h := h.more [.apiReset] rfl fun _ _ => ⟨⟨Or.inl rfl, rfl, Or.inl rfl, rfl⟩, rfl⟩
  ext _ _ h := h.silent rfl fun x => x.same
  lock _ h _ _ := h.silent rfl fun x => x.same
  unlock _ h := h.silent rfl fun x => x.same

theorem rest_line (p : Platform) {d : D} (h : Rest d) (he : isError d = false) :
    Rest (parseLine p d).1 := by
  have hw : Rest (parseWait d) := by
    unfold parseWait
    split <;> exact h.same
  have hr : ∀ e : D, Rest e → Rest (parseReply p e) := by
    intro e he
    have ok : ∀ f : D, f.snd = e.snd → f.connectPending = e.connectPending →
        (f.rep = .okReply ∨ f.rep = e.rep) → f.resetPending = e.resetPending → Rest f :=
      fun f h1 h2 h3 h4 => ⟨by rw [h1]; exact he.snd, by rw [h2]; exact he.conn,
        by rcases h3 with h3 | h3 <;> rw [h3]; exact Or.inl rfl; exact he.rep,
        by rw [h4]; exact he.reset⟩
    rcases he.rep with hx | hx | hx <;> simp only [parseReply, hx]
    · exact he
    · refine ok _ ?_ ?_ ?_ ?_ <;> (repeat' split) <;> simp
    · refine ok _ ?_ ?_ ?_ ?_ <;> (repeat' split) <;> simp
  have hc : ∀ e : D, Rest e → Rest (checkState e) := by
    intro e he
    unfold checkState
    rw [if_neg (by rcases he.snd with y | y <;> simp [y, Snd.idx])]
    exact he
  unfold parseLine
  rw [he]
  exact hc _ (hr _ hw)

theorem rest_sections (p : Platform) (base : List Ev) : Sections p (RestSince base) where
  fail d h _ := h.silent rfl fun x => ⟨Or.inr rfl, x.conn, x.rep, x.reset⟩
  reset d h hr _ := by
    refine h.grow (eff_handleReset (x := NoHeader) d) fun x => ?_
    have := x.reset
    rw [hr] at this; cases this
  line d s m l _ h _ _ hl _ := by
    refine h.more [.line l] (by rw [parseLine_trace]) fun hb x =>
      ⟨rest_line p ?_ (line_noError hl hb), rfl⟩
    exact x.same
  drop d h _ _ _ := h.more [_] (by simp; rfl) fun _ x => ⟨x.same, rfl⟩
  csq d h _ _ _ _ _ _ := by
    refine h.more [_, _] (by simp; exact ⟨rfl, rfl⟩) fun _ x =>
      ⟨⟨by simpa using x.snd, by simpa using x.conn, Or.inr (Or.inl rfl), by simpa using x.reset⟩,
        by simp [restOk, other]⟩
  ident d h _ _ _ _ hq := by
    obtain ⟨w, hm, g1, g2, ht⟩ := SimDev.sendIDRequest_true hq
    refine h.more [.cmd w g1, .arg lineEnd g2] (by simp [ht]) fun _ x =>
      ⟨⟨by simpa using x.snd, by simpa using x.conn, Or.inr (Or.inr rfl), by simpa using x.reset⟩, ?_⟩
    simp only [SimDev.idCommands, iccidCommand, List.mem_cons, List.not_mem_nil, or_false] at hm
    rcases hm with rfl | rfl | rfl | rfl | rfl <;> simp [restOk, other]
  identNone d h hq :=
    h.silent (SimDev.sendIDRequest_false hq).1 fun x => x.same (by simp) (by simp) (by simp) (by simp)
  act d h _ _ _ _ := by
    refine h.grow (eff_act (x := NoHeader) d (by simp [Clear])) fun x => ?_
    rcases x.snd with y | y
    · have e : act d = ({ d with delay := 10, cs := .notConnected } : D) := by
        simp [act, y, handleConnect, x.conn]
      rw [e]
      exact ⟨x.same, [], by simp, rfl⟩
    · have e : act d = d := by simp only [act, y]
      rw [e]
      exact ⟨x, [], by simp, rfl⟩

/-- An idle driver is at rest or about to start the connection. -/
structure Idle (d : D) : Prop where
  snd : d.cs = .notConnected → d.snd = .notConnected ∨ d.snd = .serialError ∨ d.snd = .connecting
  rep : d.cs = .notConnected → d.rep = .okReply ∨ d.rep = .csq ∨ d.rep = .requestID
  reset : d.cs = .notConnected → d.resetPending = false

theorem Idle.same {d e : D} (h : Idle d) (h0 : e.cs = .notConnected → d.cs = .notConnected := by exact id)
    (h1 : e.snd = d.snd := by rfl) (h2 : e.rep = d.rep := by rfl)
    (h3 : e.resetPending = d.resetPending := by rfl) : Idle e :=
  ⟨fun x => by rw [h1]; exact h.snd (h0 x), fun x => by rw [h2]; exact h.rep (h0 x),
    fun x => by rw [h3]; exact h.reset (h0 x)⟩

theorem Idle.vac {e : D} (h : e.cs ≠ .notConnected) : Idle e :=
  ⟨fun x => absurd x h, fun x => absurd x h, fun x => absurd x h⟩

theorem idle_calls : Calls Idle where
  io _ _ _ _ _ h := h.same
  isOpen _ _ h := h.same
  host _ _ _ _ h := h.same
  conn _ h _ _ := h.same
  disc0 _ h _ := h.same
  disc _ h _ := h.same
  write0 _ h _ := h.same
  write _ _ h _ := h.same
  read _ _ h := h.same
  rssi _ h := h.same
  userTx _ _ _ _ h := h.same
  userRx _ _ _ _ h := h.same

theorem idle_own : Own Idle where
  reset _ _ := ⟨fun _ => Or.inl rfl, fun _ => Or.inl rfl, fun _ => rfl⟩
  ext _ _ h := h.same
  lock _ h _ _ := h.same
  unlock _ h := h.same

/-- Where the idle state comes from. -/
theorem act_idle {d : D} (h : (act d).cs = .notConnected) :
    d.cs = .notConnected ∨ d.snd = .notConnected ∨ d.snd = .finalizeDisconnect := by
  revert h
  cases hsnd : d.snd
  case connected =>
    simp only [act, hsnd, actConnected]
    split
    · split
      · simp
      · simp
    · (repeat' split) <;> simp_all [handleDisconnect]
      split <;> simp
  case sendCiprxget2 =>
    simp only [act, hsnd, actCiprxget2, handleDisconnect]
    (repeat' split) <;> simp_all
  case receiving =>
    simp only [act, hsnd, actReceiving]
    (repeat' split) <;> simp_all
  case sendCipclose =>
    simp only [act, hsnd]
    split <;> simp
  case sendCipstart =>
    simp only [act, hsnd, actCipstart]
    split <;> simp_all
  case sendCstt =>
    simp only [act, hsnd, actCstt]
    split <;> simp_all
  case sendCifsr =>
    simp only [act, hsnd, handleDisconnect]
    (repeat' split) <;> simp_all
  case sendDnsQuery =>
    simp only [act, hsnd]
    (repeat' split) <;> simp_all
  case ipUnconnected =>
    simp only [act, hsnd, handleDisconnect, handleConnect]
    (repeat' split) <;> simp_all
  all_goals simp [act, hsnd]
  all_goals (try (exact fun h => h))

theorem parseLine_cs (p : Platform) (d : D) :
    ((parseLine p d).1.cs = .notConnected → d.cs = .notConnected) ∧
    (parseLine p d).1.connectPending = d.connectPending := by
  have hw : (parseWait d).cs = d.cs ∧ (parseWait d).connectPending = d.connectPending := by
    unfold parseWait
    split <;> simp
  have hx : ∀ e : D, ((parseReply p e).cs = .notConnected → e.cs = .notConnected) ∧
      (parseReply p e).connectPending = e.connectPending := by
    intro e
    have hd : (e.parseDnsReply.1.cs = .notConnected → e.cs = .notConnected) := by
      unfold SimDev.parseDnsReply
      dsimp only
      (repeat' split) <;> simp
    unfold parseReply
    split <;> (try dsimp only) <;> (repeat' split) <;> simp_all
  have hc : ∀ e : D, (checkState e).cs = e.cs ∧ (checkState e).connectPending = e.connectPending := by
    intro e
    unfold checkState
    split <;> simp
  unfold parseLine
  split
  · simp
  · have := hx (parseWait d)
    simp only [hc]
    rw [hw.1, hw.2] at this
    exact this

/-- Parsing a line in the idle state. -/
theorem parseLine_calm (p : Platform) {d : D} (h : (parseLine p d).1.cs = .notConnected)
    (hr : d.rep = .okReply ∨ d.rep = .csq ∨ d.rep = .requestID) (hs : d.snd.idx < Snd.connected.idx) :
    (parseLine p d).1.snd = d.snd ∧ (parseLine p d).1.resetPending = d.resetPending ∧
    ((parseLine p d).1.rep = d.rep ∨ (parseLine p d).1.rep = .okReply) := by
  have hw : (parseWait d).snd = d.snd ∧ (parseWait d).resetPending = d.resetPending ∧
      (parseWait d).rep = d.rep := by
    unfold parseWait
    split <;> simp
  have hx : ∀ e : D, e.rep = d.rep → (parseReply p e).snd = e.snd ∧
      (parseReply p e).resetPending = e.resetPending ∧
      ((parseReply p e).rep = e.rep ∨ (parseReply p e).rep = .okReply) := by
    intro e he
    rcases hr with y | y | y <;> rw [y] at he <;> simp only [parseReply, he] <;>
      (repeat' split) <;> simp_all
  have hck : ∀ f : D, f.snd = d.snd → checkState f = f := by
    intro f hf
    unfold checkState
    rw [if_neg (by rw [hf]; omega)]
  unfold parseLine at h ⊢
  split
  · rename_i hq; rw [if_pos hq] at h; simp at h
  · have h1 := hx _ hw.2.2
    rw [hw.1, hw.2.1, hw.2.2] at h1
    dsimp only
    rw [hck _ h1.1]
    exact h1

theorem Idle.early {d : D} (h : Idle d) (hc : d.cs = .notConnected) : d.snd.idx < Snd.connected.idx := by
  rcases h.snd hc with y | y | y <;> simp [y, Snd.idx]

theorem idle_sections (p : Platform) : Sections p Idle where
  fail _ h _ := ⟨fun _ => Or.inr (Or.inl rfl), fun x => h.rep x, fun x => h.reset x⟩
  reset d h hr _ := by
    refine .vac fun x => ?_
    have := h.reset (by revert x; unfold handleReset; dsimp only; split <;> simp_all)
    rw [hr] at this; cases this
  line d s m l _ h _ _ _ _ := by
    have h' : Idle (d.gotLine s m d.rep l) := h.same
    generalize d.gotLine s m d.rep l = e at h'
    by_cases hc : (parseLine p e).1.cs = .notConnected
    · have h0 := (parseLine_cs p e).1 hc
      obtain ⟨h1, h2, h3⟩ := parseLine_calm p hc (h'.rep h0) (h'.early h0)
      refine ⟨fun _ => by rw [h1]; exact h'.snd h0, fun _ => ?_, fun _ => by rw [h2]; exact h'.reset h0⟩
      rcases h3 with h3 | h3
      · rw [h3]; exact h'.rep h0
      · exact Or.inl h3
    · exact .vac hc
  drop _ h _ _ _ := h.same
  csq _ h hr _ _ _ _ _ :=
    ⟨fun x => by simpa using h.snd (by simpa using x), fun _ => Or.inr (Or.inl rfl),
      fun _ => by simpa using hr⟩
  ident _ h hr _ _ _ _ :=
    ⟨fun x => by simpa using h.snd (by simpa using x), fun _ => Or.inr (Or.inr rfl),
      fun _ => by simpa using hr⟩
  identNone d h _ := h.same (by simp) (by simp) (by simp) (by simp)
  act d h hr hw hp _ := by
    by_cases hc : (Sim800.act d).cs = .notConnected
    · rcases act_idle hc with y | y | y
      · rcases h.snd y with z | z | z
        · simp only [act, z]
          unfold handleConnect
          split
          · exact ⟨fun _ => Or.inr (Or.inr rfl), fun _ => Or.inl hp, fun _ => hr⟩
          · exact ⟨fun _ => Or.inl rfl, fun _ => Or.inl hp, fun _ => hr⟩
        · simp only [act, z]; exact h
        · simp [act, z] at hc
      · simp only [act, y]
        unfold handleConnect
        split
        · exact ⟨fun _ => Or.inr (Or.inr rfl), fun _ => Or.inl hp, fun _ => hr⟩
        · exact ⟨fun _ => Or.inl rfl, fun _ => Or.inl hp, fun _ => hr⟩
      · simp only [act, y]
        exact ⟨fun _ => Or.inl rfl, fun _ => Or.inl hp, fun _ => hr⟩
    · exact .vac hc

/-- No connection is asked for, and if the driver is idle it is at rest. -/
structure NoAsk (d : D) : Prop where
  conn : d.connectPending = false
  reset : d.resetPending = false
  calm : d.cs = .notConnected → Rest d

abbrev NoAskSince (base : List Ev) : D → Prop := Since base restBad (fun _ => true) NoAsk

theorem NoAsk.same {d e : D} (h : NoAsk d) (h0 : e.cs = .notConnected → d.cs = .notConnected := by exact id)
    (h1 : e.snd = d.snd := by rfl) (h2 : e.connectPending = d.connectPending := by rfl)
    (h3 : e.rep = d.rep := by rfl) (h4 : e.resetPending = d.resetPending := by rfl) : NoAsk e :=
  ⟨by rw [h2]; exact h.conn, by rw [h4]; exact h.reset, fun x => (h.calm (h0 x)).same h1 h2 h3 h4⟩

theorem noAsk_calls (base : List Ev) : Calls (NoAskSince base) where
  io _ _ _ _ _ h := h.silent rfl fun x => x.same
  isOpen _ _ h := h.silent rfl fun x => x.same
  host _ _ _ _ h := h.silent rfl fun x => x.same
  conn _ h _ _ := h.spoil .apiConnect rfl rfl
  disc0 _ h _ := h.more [.apiDisconnect] rfl fun _ x => ⟨x.same, rfl⟩
  disc _ h _ := h.more [.apiDisconnect] rfl fun _ x => ⟨x.same, rfl⟩
  write0 _ h _ := h.more [_] rfl fun _ x => ⟨x.same, rfl⟩
  write _ _ h _ := h.more [_] rfl fun _ x => ⟨x.same, rfl⟩
  read _ _ h := h.more [_] rfl fun _ x => ⟨x.same, rfl⟩
  rssi _ h := h.silent rfl fun x => x.same
  userTx _ _ _ _ h := h.more [_] rfl fun _ x => ⟨x.same, rfl⟩
  userRx _ _ _ _ h := h.more [_] rfl fun _ x => ⟨x.same, rfl⟩

theorem noAsk_own (base : List Ev) : Own (NoAskSince base) where
  reset _ h := h.more [.apiReset] rfl fun _ _ =>
    ⟨⟨rfl, rfl, fun _ => ⟨Or.inl rfl, rfl, Or.inl rfl, rfl⟩⟩, rfl⟩
  ext _ _ h := h.silent rfl fun x => x.same
  lock _ h _ _ := h.silent rfl fun x => x.same
  unlock _ h := h.silent rfl fun x => x.same

theorem act_connectPending {d : D} (h : d.connectPending = false) : (act d).connectPending = false := by
  cases hsnd : d.snd <;> simp only [act, hsnd, actCstt, actCipstart, actConnected, actCiprxget2,
    actReceiving, handleConnect, handleDisconnect, sendCommand] <;> (repeat' split) <;> simp_all

theorem act_resetPending (d : D) : (act d).resetPending = d.resetPending := by
  cases hsnd : d.snd <;> simp only [act, hsnd, actCstt, actCipstart, actConnected, actCiprxget2,
    actReceiving, handleConnect, handleDisconnect, sendCommand] <;> (repeat' split) <;> simp_all

theorem noAsk_act {d : D} (h : NoAsk d) (hp : d.rep = .okReply) : NoAsk (act d) := by
  refine ⟨act_connectPending h.conn, by rw [act_resetPending]; exact h.reset, fun hc => ?_⟩
  have key : d.snd = .notConnected → Rest (act d) := by
    intro y
    have e : act d = ({ d with delay := 10, cs := .notConnected } : D) := by
      simp [act, y, handleConnect, h.conn]
    rw [e]
    exact ⟨Or.inl y, h.conn, Or.inl hp, h.reset⟩
  rcases act_idle hc with y | y | y
  · have hk := h.calm y
    rcases hk.snd with z | z
    · exact key z
    · simp only [act, z]; exact hk
  · exact key y
  · simp only [act, y]
    exact ⟨Or.inl rfl, h.conn, Or.inl hp, h.reset⟩

theorem parseLine_noReset (p : Platform) {d : D} (h : d.resetPending = false) (he : isError d = false)
    (h1 : d.has b!"+CDNSGIP: 0" = false) (h2 : d.has b!"0, CONNECT FAIL" = false) :
    (parseLine p d).1.resetPending = false := by
  have hw : (parseWait d).resetPending = false ∧ (parseWait d).line = d.line := by
    unfold parseWait
    split <;> simp [h]
  have hc : ∀ e : D, (checkState e).resetPending = e.resetPending := by
    intro e; unfold checkState; split <;> simp
  have h1' : (parseWait d).has b!"+CDNSGIP: 0" = false := by simpa [Dev.has, hw.2] using h1
  have h2' : (parseWait d).has b!"0, CONNECT FAIL" = false := by simpa [Dev.has, hw.2] using h2
  unfold parseLine
  rw [he]
  simp only [hc, Bool.false_eq_true, if_false]
  generalize parseWait d = e at *
  have hd : e.parseDnsReply.1.resetPending = false := by
    unfold SimDev.parseDnsReply
    simp only [h1', Bool.false_eq_true, if_false]
    (repeat' split) <;> exact hw.1
  unfold parseReply
  split <;> (try dsimp only) <;> (repeat' split) <;> simp_all

theorem noAsk_line (p : Platform) {d : D} (h : NoAsk d) (he : isError d = false)
    (h1 : d.has b!"+CDNSGIP: 0" = false) (h2 : d.has b!"0, CONNECT FAIL" = false) :
    NoAsk (parseLine p d).1 :=
  ⟨by rw [(parseLine_cs p d).2]; exact h.conn, parseLine_noReset p h.reset he h1 h2,
    fun hc => rest_line p (h.calm ((parseLine_cs p d).1 hc)) he⟩

theorem noAsk_sections (p : Platform) (base : List Ev) : Sections p (NoAskSince base) where
  fail d h _ := h.silent rfl fun x => ⟨x.conn, x.reset, fun y => ⟨Or.inr rfl, x.conn, (x.calm y).rep, x.reset⟩⟩
  reset d h hr _ := by
    refine h.grow (eff_handleReset (x := NoHeader) d) fun x => ?_
    have := x.reset
    rw [hr] at this; cases this
  line d s m l _ h _ _ hl _ := by
    refine h.more [.line l] (by rw [parseLine_trace]) fun hb x =>
      ⟨noAsk_line p ?_ (line_noError hl hb) (line_good hl hb (by decide)) (line_good hl hb (by decide)), rfl⟩
    exact x.same
  drop d h _ _ _ := h.more [_] (by simp; rfl) fun _ x => ⟨x.same, rfl⟩
  csq d h hr _ _ _ _ _ := by
    refine h.more [_, _] (by simp; exact ⟨rfl, rfl⟩) fun _ x => ⟨⟨by simpa using x.conn, by simpa using hr, fun y => ?_⟩, rfl⟩
    have z := x.calm (by simpa using y)
    exact ⟨by simpa using z.snd, by simpa using x.conn, Or.inr (Or.inl rfl), by simpa using hr⟩
  ident d h hr _ _ _ hq := by
    obtain ⟨w, hm, g1, g2, ht⟩ := SimDev.sendIDRequest_true hq
    refine h.more [.cmd w g1, .arg lineEnd g2] (by simp [ht]) fun _ x =>
      ⟨⟨by simpa using x.conn, by simpa using hr, fun y => ?_⟩, rfl⟩
    have z := x.calm (by simpa using y)
    exact ⟨by simpa using z.snd, by simpa using x.conn, Or.inr (Or.inr rfl), by simpa using hr⟩
  identNone d h hq :=
    h.silent (SimDev.sendIDRequest_false hq).1 fun x =>
      x.same (by simp) (by simp) (by simp) (by simp) (by simp)
  act d h hr _ hp _ := by
    refine h.grow (eff_act (x := NoHeader) d (by simp [Clear])) fun x => ?_
    obtain ⟨ev, hev⟩ := Since.grows (eff_act (x := NoHeader) d (by simp [Clear]))
    exact ⟨noAsk_act x hp, ev, hev, by simp⟩

/-- An idle driver that nobody asked to connect is at rest. -/
theorem Idle.noAsk {d : D} (h : Idle d) (hc : d.connectPending = false) (hr : d.resetPending = false)
    (hs : d.cs = .notConnected → d.snd ≠ .connecting) : NoAsk d := by
  refine ⟨hc, hr, fun x => ⟨?_, hc, h.rep x, h.reset x⟩⟩
  rcases h.snd x with y | y | y
  · exact Or.inl y
  · exact Or.inr y
  · exact absurd y (hs x)

end Verif.Sim800
