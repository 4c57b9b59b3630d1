import Verif.Lemmas.Datagram
import Verif.Lemmas.RecvEspressif
import Verif.Lemmas.RecvCC1352P7

/-! An empty datagram or data block: nothing is read any more (WiFi and WiSUN driver). -/

namespace Verif

open Dev Spec

/-- Neither `resetStates()` nor `disconnect()`. -/
def Stays (op : Op) : Prop := op ≠ .resetStates ∧ op ≠ .disconnect

namespace Espressif

/-- A header announced nothing. -/
structure Hollow (d : D) : Prop where
  line : d.lineRead = false
  reset : d.resetPending = false
  none : d.bytesToRead = 0
  stay : d.disconnectPending = false
  snd : d.snd = .connected ∨ d.snd = .receiving ∨ d.snd = .sendCiprecvdata ∨ d.snd = .sendCwqap ∨ d.snd = .serialError

theorem hollow_act {d : D} (h : Hollow d) :
    (Hollow (act d) ∧ Silent d.trace (act d).trace) ∨ (Stuck (act d) ∧ Deaf d.trace (act d).trace) := by
  obtain ⟨hl, hr, hn, hd, h⟩ := h
  rcases h with hs | hs | hs | hs | hs
  · have e : act d = actConnected d := by simp only [act, hs]
    rw [e]
    unfold actConnected
    split
    · dsimp only
      rcases prepare_cases d with h | ⟨h1, h2, g, a, b, h3⟩
      · rw [h]
        exact .inl ⟨⟨hl, hr, hn, hd, .inl hs⟩, silent_refl rfl⟩
      · rw [if_pos h1]
        refine .inr ⟨⟨by simp [hl], by simp [hr], .inl ?_, by simp⟩, ?_⟩
        · show (d.prepareSending false).1.wait ≠ Option.none
          rw [h2]; simp
        · refine deaf_cmd (w := b!"AT+CIPSEND=") (g := g)
            (rest := [.arg a b, .arg lineEnd (lineEnd.take ((d.prepareSending false).1.ser.writeStr lineEnd).2)]) ?_ ?_
          · show (d.prepareSending false).1.trace ++ _ = _
            rw [h3]
            simp
          · intro e he
            simp only [List.mem_cons, List.not_mem_nil, or_false] at he
            rcases he with rfl | rfl <;> exact ⟨_, _, rfl⟩
    · split
      · refine .inl ⟨⟨hl, hr, hn, hd, ?_⟩, silent_refl rfl⟩
        show (if d.typ = .tcp then Snd.sendCiprecvdata else Snd.receiving) = .connected ∨ _
        split <;> simp
      · split
        · rw [if_neg (by simp [hd])]
          exact .inl ⟨⟨hl, hr, hn, hd, .inl hs⟩, silent_refl rfl⟩
        · exact .inl ⟨⟨hl, hr, hn, rfl, by simp⟩, silent_refl rfl⟩
  · have e : act d = actReceiving d := by simp only [act, hs]
    rw [e]
    unfold actReceiving
    rw [if_neg (by rw [hn]; omega)]
    split
    · exact .inl ⟨⟨hl, hr, hn, hd, by simp⟩, silent_refl rfl⟩
    · exact .inl ⟨⟨hl, hr, hn, hd, by simp⟩, silent_refl rfl⟩
  · have e : act d = actCiprecvdata d := by simp only [act, hs]
    rw [e]
    unfold actCiprecvdata
    rw [if_neg (by simp [hd])]
    split
    · dsimp only
      split
      · rename_i hq
        refine .inr ⟨⟨?_, ?_, .inr (by simp), by simp⟩, ?_⟩
        · show (sendCiprcvdata d).1.lineRead = false
          unfold sendCiprcvdata; dsimp only; split <;> simpa using hl
        · show (sendCiprcvdata d).1.resetPending = false
          unfold sendCiprcvdata; dsimp only; split <;> simpa using hr
        · show Deaf d.trace (sendCiprcvdata d).1.trace
          unfold sendCiprcvdata at hq ⊢
          dsimp only at hq ⊢
          split at hq
          · rename_i hx
            rw [if_pos hx]
            simp only [Dev.arg, Dev.cmd, askAvail, List.append_assoc, List.singleton_append]
            refine deaf_cmd (rest := [.arg _ _, .arg _ _]) rfl ?_
            intro e he
            simp only [List.mem_cons, List.not_mem_nil, or_false] at he
            rcases he with rfl | rfl <;> exact ⟨_, _, rfl⟩
          · exact Bool.noConfusion hq
      · rename_i hq
        have : (sendCiprcvdata d).1 = askAvail d := by
          unfold sendCiprcvdata at hq ⊢
          dsimp only at hq ⊢
          split
          · rename_i hx
            rw [if_pos hx] at hq
            exact absurd rfl hq
          · rfl
        rw [this]
        exact .inl ⟨⟨hl, hr, hn, hd, .inr (.inr (.inl hs))⟩, silent_refl rfl⟩
    · exact .inl ⟨⟨hl, hr, hn, hd, by simp⟩, silent_refl rfl⟩
  · unfold act; rw [hs]; dsimp only
    exact .inr ⟨⟨hl, hr, .inl (by simp), by simp⟩, deaf_cmd (sendCommand_trace2 d b!"AT+CWQAP") (by simp)⟩
  · unfold act; rw [hs]
    exact .inl ⟨⟨hl, hr, hn, hd, by simp [hs]⟩, silent_refl rfl⟩

theorem hollow_proceed (p : Platform) {d : D} (h : Hollow d) :
    (Hollow (proceed p d) ∧ Silent d.trace (proceed p d).trace) ∨ (Stuck (proceed p d) ∧ Deaf d.trace (proceed p d).trace) := by
  unfold proceed
  by_cases hw : d.wait ≠ Option.none ∨ d.rep ≠ .okReply
  · rw [if_pos hw]; exact .inl ⟨h, silent_refl rfl⟩
  · rw [if_neg hw]
    have h' : Hollow (askSpace d) := ⟨h.line, h.reset, h.none, h.stay, h.snd⟩
    split
    · exact .inl ⟨h', silent_refl rfl⟩
    · rw [sendNext_off p (d := askSpace d) h.line]
      exact hollow_act h'

theorem hollow_run (p : Platform) {d : D} (ok : Bool) (h : Hollow d) :
    (Hollow (run p d ok) ∧ Silent d.trace (run p d ok).trace) ∨ (Stuck (run p d ok) ∧ Deaf d.trace (run p d ok).trace) := by
  unfold run
  split
  · unfold tryOpen
    split
    · exact .inl ⟨⟨h.line, h.reset, h.none, h.stay, h.snd⟩, silent_refl rfl⟩
    · exact .inl ⟨⟨h.line, h.reset, h.none, h.stay, by simp⟩, silent_refl rfl⟩
  · rw [h.reset]
    simp only [Bool.false_eq_true, if_false]
    unfold work
    dsimp only
    have e : fillLineBuffer d = (d, false) := fillLine_off d _ h.line
    rw [e]
    have e2 : flushIfDisconnecting d = d := by unfold flushIfDisconnecting; rw [if_neg (by simp [h.stay])]
    simp only [Bool.false_eq_true, if_false, e2]
    exact hollow_proceed p h

theorem stays_disc (p : Platform) {d : D} (op : Op) (ho : Stays op) (hr : ¬ ∃ ok, op = .run ok) (h : d.disconnectPending = false) :
    (step p d op).disconnectPending = false := by
  cases op <;> first
    | exact absurd rfl ho.1
    | exact absurd rfl ho.2
    | exact absurd ⟨_, rfl⟩ hr
    | (simp only [step, common, logConnect, connect, ipConnect, Dev.write, Dev.read, Dev.log, Dev.setHostPort, Dev.requestRSSI, Dev.serialWrite,
        Dev.serialRead, setSSID, setPassword, requestMac]
       (repeat' split) <;> first | exact h | (exact absurd h (by simp_all)))

theorem hollow_step (p : Platform) (d : D) (op : Op) (ho : Stays op) (h : Hollow d) :
    (Hollow (step p d op) ∧ Silent d.trace (step p d op).trace) ∨ (Stuck (step p d op) ∧ Deaf d.trace (step p d op).trace) := by
  by_cases hr : ∃ ok, op = .run ok
  · obtain ⟨ok, rfl⟩ := hr
    exact hollow_run p ok h
  · have c := calm_step p d op ho.1 fun ok e => hr ⟨ok, e⟩
    exact .inl ⟨⟨by rw [c.lineRead]; exact h.line, by rw [c.resetPending]; exact h.reset, by rw [c.bytesToRead]; exact h.none,
      stays_disc p op ho hr h.stay, by rw [c.snd]; exact h.snd⟩, c.trace⟩

theorem hollow_exec (p : Platform) {d : D} (h : Hollow d) (ops : List Op) (ho : ∀ op ∈ ops, Stays op) :
    Deaf d.trace (exec (step p) d ops).trace :=
  (exec_deaf (tr := (·.trace)) (ok := Stays) (fun d op ho h => stuck_step p d op ho.1 h) (hollow_step p) h ops ho).2

/-- An empty datagram was announced. -/
theorem hollow_datagram (p : Platform) {d : D} (hv : Inv d) (hrs : d.resetPending = false)
    (hdp : d.disconnectPending = false) (htyp : d.typ ≠ .tcp) (hs : d.snd = .connected)
    (hw : d.wait = none) (hrp : d.rep = .okReply) (hb : d.bytesToRead = 0)
    {ok : Bool} {l : List Byte} {rest : List Ev}
    (ht : (run p d ok).trace = d.trace ++ .line l :: rest) (hl : b!"+IPD" <+: l) (h5 : 5 ≤ l.length)
    (hn : numberAt p l 5 = 0) (ops : List Op) (ho : ∀ op ∈ ops, Stays op) :
    Deaf (d.trace ++ [.line l]) (exec (step p) (run p d ok) ops).trace := by
  obtain ⟨s, m, -, e⟩ := datagram_header p hv hrs htyp hs hw hrp hb ht hl h5
  have h : Hollow { d.gotLine s m d.rep l with bytesToRead := numberAt p l 5, lineRead := false, dataPending := true } :=
    ⟨rfl, hrs, hn, hdp, .inl hs⟩
  rw [e]
  rcases hollow_proceed p h with ⟨h1, h2⟩ | ⟨h1, h2⟩
  · exact Spec.Silent.then_deaf h2 (hollow_exec p h1 ops ho)
  · exact Spec.Deaf.then_silent h2 (exec_silent (I := Stuck) (tr := (·.trace)) (ok := Stays) (fun d op ho h => stuck_step p d op ho.1 h) h1 ops ho).2

theorem parseLine_hollow (p : Platform) (d : D) (h : isError d = false) :
    (parseLine p d).2 = false ∧ (parseLine p d).1.resetPending = d.resetPending ∧
      (parseLine p d).1.disconnectPending = d.disconnectPending := by
  unfold parseLine
  rw [if_neg (by simp [h])]
  have a1 : ∀ e : D, (checkState p e).resetPending = e.resetPending ∧ (checkState p e).disconnectPending = e.disconnectPending := by
    intro e; unfold checkState; (try dsimp only); (repeat' split) <;> exact ⟨rfl, rfl⟩
  have a2 : ∀ e : D, (parseReply p e).resetPending = e.resetPending ∧ (parseReply p e).disconnectPending = e.disconnectPending := by
    intro e; unfold parseReply parseCiprecvdata; (repeat' split) <;> exact ⟨rfl, rfl⟩
  have a3 : ∀ e : D, (parseWait e).resetPending = e.resetPending ∧ (parseWait e).disconnectPending = e.disconnectPending := by
    intro e; unfold parseWait; (repeat' split) <;> exact ⟨rfl, rfl⟩
  have a4 : (parseSendFail d).resetPending = d.resetPending ∧ (parseSendFail d).disconnectPending = d.disconnectPending := by
    unfold parseSendFail; (repeat' split) <;> exact ⟨rfl, rfl⟩
  exact ⟨rfl, by rw [(a1 _).1, (a2 _).1, (a3 _).1, a4.1], by rw [(a1 _).2, (a2 _).2, (a3 _).2, a4.2]⟩

/-- The header of an empty data block was read. -/
theorem hollow_header (p : Platform) {d : D} (hv : LineOk d) (hi : RxI p d) (hrs : d.resetPending = false)
    (hdp : d.disconnectPending = false) {ok : Bool} {l : List Byte} {rest : List Ev}
    (ht : (run p d ok).trace = d.trace ++ .line l :: rest)
    (hreq : ((rx requestWifi (headerEsp p)).after d.trace).req ≠ none) (hz : headerEsp p l = some 0)
    (ops : List Op) (ho : ∀ op ∈ ops, Stays op) :
    Deaf (d.trace ++ [.line l]) (exec (step p) (run p d ok) ops).trace := by
  have hrep : d.rep = .waitCiprecvdata := hi.rx.req.mp hreq
  suffices h : ∃ e, Hollow e ∧ e.trace = d.trace ++ [.line l] ∧ run p d ok = proceed p e by
    obtain ⟨e, h, h1, h2⟩ := h
    rw [h2, ← h1]
    rcases hollow_proceed p h with ⟨h1, h2⟩ | ⟨h1, h2⟩
    · exact Spec.Silent.then_deaf h2 (hollow_exec p h1 ops ho)
    · exact Spec.Deaf.then_silent h2 (exec_silent (I := Stuck) (tr := (·.trace)) (ok := Stays) (fun d op ho h => stuck_step p d op ho.1 h) h1 ops ho).2
  have hne : ∀ e : D, e.trace = d.trace → e.trace ≠ d.trace ++ .line l :: rest := by
    intro e he h
    rw [he] at h
    have := congrArg List.length h
    simp at this
  unfold run at ht ⊢
  by_cases ho : d.isOpen = false
  · rw [if_pos ho] at ht
    refine absurd ht (hne _ ?_)
    unfold tryOpen; split <;> rfl
  rw [if_neg ho, hrs] at ht ⊢
  simp only [Bool.false_eq_true, if_false] at ht ⊢
  unfold work at ht ⊢
  dsimp only at ht ⊢
  rcases fillLine_cases d (lineStop d.typ d.rep) (stopOk d.typ d.rep).full hv with
    ⟨s, m, k, e⟩ | ⟨hlr, s, m, r, l', eq0, hd, hlo, m', c, h3, htk, hgl⟩
  · exfalso
    have e' : fillLineBuffer d = (d.setIo s m k, false) := e
    rw [e'] at ht
    simp only [Bool.false_eq_true, if_false] at ht
    have e2 : flushIfDisconnecting (d.setIo s m k) = d.setIo s m k := by
      unfold flushIfDisconnecting; rw [if_neg (by simp [hdp])]
    rw [e2] at ht
    exact proceed_first p (d.setIo s m k) l rest ht
  · have e' : fillLineBuffer d = (d.gotLine s m r l', true) := eq0
    rw [e'] at ht ⊢
    simp only [if_true] at ht ⊢
    have hll : l' = l := by
      have hnew : ∃ new, (if (parseLine p (d.gotLine s m r l')).2 = true
          then (parseLine p (d.gotLine s m r l')).1
          else proceed p (parseLine p (d.gotLine s m r l')).1).trace = d.trace ++ .line l' :: new := by
        split
        · exact ⟨[], by rw [parseLine_trace]⟩
        · obtain ⟨new, h⟩ := proceed_grows p (parseLine p (d.gotLine s m r l')).1
          exact ⟨new, by rw [h, parseLine_trace]; simp⟩
      obtain ⟨new, h⟩ := hnew
      have := h.symm.trans ht
      have := List.append_cancel_left this
      injection this with x _
      injection x
    subst hll
    have hle : LineEnd d l' r := ⟨m', c, h3, htk, hgl⟩
    have hlen : l'.length ≤ lineMax := by
      have h1 := (List.getElem?_eq_some_iff.mp hd.zero).1
      have h2 := hlo.len
      omega
    rcases hle.header (p := p) hi.tcp hlen hi.parse with ⟨_, h⟩ | ⟨_, hr, h13, hh, h⟩
    · rw [h hrep] at hz; simp at hz
    rw [h] at hz
    injection hz with hz
    subst hr
    have hno : ∀ lit : List Byte, (0 : Byte) ∉ lit → ¬ (lit <+: b!"+CIPRECVDATA" ∨ b!"+CIPRECVDATA" <+: lit) →
        (d.gotLine s m .parseStateCiprecvdata l').has lit = false := fun lit h0 h1 => by
      rw [hd.has_iff h0]; exact not_prefix hh h1
    have hhas := hd.has_iff (lit := b!"+CIPRECVDATA") (by decide)
    rw [hh] at hhas
    have herr : isError (d.gotLine s m .parseStateCiprecvdata l') = false := by
      unfold isError; rw [hno b!"ERROR" (by decide) (by decide), hno b!"FAIL" (by decide) (by decide)]; rfl
    obtain ⟨x1, x2, x3, x4⟩ := (parseLine_rx p (d.gotLine s m .parseStateCiprecvdata l') hi.tcp).2.2.2 rfl hhas herr
      (hno _ (by decide) (by decide)) (hno _ (by decide) (by decide))
    obtain ⟨y1, y2, y3⟩ := parseLine_hollow p (d.gotLine s m .parseStateCiprecvdata l') herr
    refine ⟨_, ⟨x2, y2.trans hrs, ?_, y3.trans hdp, .inr (.inl x3)⟩, parseLine_trace _ _, by rw [y1]; rfl⟩
    rw [x4, hd.number _ h13]
    show addSize d.bytesToRead _ = _
    rw [hi.rx.held.zero hlr, addSize_zero]
    exact hz

end Espressif

namespace CC1352P7

theorem prepare_cases (d : D) :
    d.prepareSending false = (d.askSpace, false) ∨
    ((d.prepareSending false).2 = true ∧ (d.prepareSending false).1.wait = some b!">" ∧
      ∃ g a b, (d.prepareSending false).1.trace = d.trace ++ [.cmd b!"AT+CIPSEND=" g, .arg a b]) := by
  unfold prepareSending
  split
  · exact .inl rfl
  · refine .inr ⟨rfl, rfl, ?_⟩
    dsimp only
    simp only [Bool.false_eq_true, if_false]
    split <;> exact ⟨_, _, _, by simp [Dev.arg, Dev.cmd]; exact ⟨rfl, rfl, rfl⟩⟩

/-- A header announced nothing. -/
structure Hollow (d : D) : Prop where
  line : d.lineRead = false
  reset : d.resetPending = false
  none : d.bytesToRead = 0
  stay : d.disconnectPending = false
  ip : d.ipConnected = true
  snd : d.snd = .connected ∨ d.snd = .receiving ∨ d.snd = .sendCiprecvdata ∨ d.snd = .serialError

theorem hollow_act {d : D} (h : Hollow d) :
    (Hollow (act d) ∧ Silent d.trace (act d).trace) ∨ (Stuck (act d) ∧ Deaf d.trace (act d).trace) := by
  obtain ⟨hl, hr, hn, hd, hi, h⟩ := h
  rcases h with hs | hs | hs | hs
  · have e : act d = actConnected d := by simp only [act, hs]
    rw [e]
    unfold actConnected
    split
    · dsimp only
      rcases prepare_cases d with h | ⟨h1, h2, g, a, b, h3⟩
      · rw [h]
        exact .inl ⟨⟨hl, hr, hn, hd, hi, .inl hs⟩, silent_refl rfl⟩
      · rw [if_pos h1]
        refine .inr ⟨⟨by simp [hl], by simp [hr], .inl ?_, by simp⟩, ?_⟩
        · show (d.prepareSending false).1.wait ≠ Option.none
          rw [h2]; simp
        · refine deaf_cmd (w := b!"AT+CIPSEND=") (g := g)
            (rest := [.arg a b, .arg lineEnd (lineEnd.take ((d.prepareSending false).1.ser.writeStr lineEnd).2)]) ?_ ?_
          · show (d.prepareSending false).1.trace ++ _ = _
            rw [h3]
            simp
          · intro e he
            simp only [List.mem_cons, List.not_mem_nil, or_false] at he
            rcases he with rfl | rfl <;> exact ⟨_, _, rfl⟩
    · split
      · exact .inl ⟨⟨hl, hr, hn, hd, hi, by simp⟩, silent_refl rfl⟩
      · unfold handleDisconnect
        rw [if_neg (by simp [hd])]
        exact .inl ⟨⟨hl, hr, hn, hd, hi, .inl hs⟩, silent_refl rfl⟩
  · have e : act d = actReceiving d := by simp only [act, hs]
    rw [e]
    unfold actReceiving
    rw [if_neg (by rw [hn]; omega)]
    split
    · exact .inl ⟨⟨hl, hr, hn, hd, hi, by simp⟩, silent_refl rfl⟩
    · exact .inl ⟨⟨hl, hr, hn, hd, hi, by simp⟩, silent_refl rfl⟩
  · have e : act d = actCiprecvdata d := by simp only [act, hs]
    rw [e]
    unfold actCiprecvdata
    rw [if_neg (by simp [hd])]
    split
    · dsimp only
      split
      · rename_i hq
        refine .inr ⟨⟨?_, ?_, .inr (by simp), by simp⟩, ?_⟩
        · show (sendCiprcvdata d).1.lineRead = false
          unfold sendCiprcvdata; dsimp only; split <;> simpa using hl
        · show (sendCiprcvdata d).1.resetPending = false
          unfold sendCiprcvdata; dsimp only; split <;> simpa using hr
        · show Deaf d.trace (sendCiprcvdata d).1.trace
          unfold sendCiprcvdata at hq ⊢
          dsimp only at hq ⊢
          split at hq
          · rename_i hx
            rw [if_pos hx]
            simp only [Dev.arg, Dev.cmd, askAvail, List.append_assoc, List.singleton_append]
            refine deaf_cmd (rest := [.arg _ _, .arg _ _]) rfl ?_
            intro e he
            simp only [List.mem_cons, List.not_mem_nil, or_false] at he
            rcases he with rfl | rfl <;> exact ⟨_, _, rfl⟩
          · exact Bool.noConfusion hq
      · rename_i hq
        have : (sendCiprcvdata d).1 = askAvail d := by
          unfold sendCiprcvdata at hq ⊢
          dsimp only at hq ⊢
          split
          · rename_i hx
            rw [if_pos hx] at hq
            exact absurd rfl hq
          · rfl
        rw [this]
        exact .inl ⟨⟨hl, hr, hn, hd, hi, .inr (.inr (.inl hs))⟩, silent_refl rfl⟩
    · exact .inl ⟨⟨hl, hr, hn, hd, hi, by simp⟩, silent_refl rfl⟩
  · unfold act; rw [hs]
    exact .inl ⟨⟨hl, hr, hn, hd, hi, by simp [hs]⟩, silent_refl rfl⟩

theorem hollow_proceed (p : Platform) {d : D} (h : Hollow d) :
    (Hollow (proceed p d) ∧ Silent d.trace (proceed p d).trace) ∨ (Stuck (proceed p d) ∧ Deaf d.trace (proceed p d).trace) := by
  unfold proceed
  by_cases hw : d.wait ≠ Option.none ∨ d.rep ≠ .okReply
  · rw [if_pos hw]; exact .inl ⟨h, silent_refl rfl⟩
  · rw [if_neg hw]
    have h' : Hollow (askSpace d) := ⟨h.line, h.reset, h.none, h.stay, h.ip, h.snd⟩
    split
    · exact .inl ⟨h', silent_refl rfl⟩
    · rw [sendNext_off p (d := askSpace d) h.line]
      exact hollow_act h'

theorem hollow_run (p : Platform) {d : D} (ok : Bool) (h : Hollow d) :
    (Hollow (run p d ok) ∧ Silent d.trace (run p d ok).trace) ∨ (Stuck (run p d ok) ∧ Deaf d.trace (run p d ok).trace) := by
  unfold run
  split
  · unfold tryOpen
    split
    · exact .inl ⟨⟨h.line, h.reset, h.none, h.stay, h.ip, h.snd⟩, silent_refl rfl⟩
    · exact .inl ⟨⟨h.line, h.reset, h.none, h.stay, h.ip, by simp⟩, silent_refl rfl⟩
  · rw [h.reset]
    simp only [Bool.false_eq_true, if_false]
    unfold work
    dsimp only
    have e : fillLineBuffer d = (d, false) := fillLine_off d _ h.line
    rw [e]
    have e2 : flushIfDisconnecting d = d := by unfold flushIfDisconnecting; rw [if_neg (by simp [h.stay])]
    simp only [Bool.false_eq_true, if_false, e2]
    exact hollow_proceed p h

theorem stays_disc (p : Platform) {d : D} (op : Op) (ho : Stays op) (hr : ¬ ∃ ok, op = .run ok) (h : d.disconnectPending = false ∧ d.ipConnected = true) :
    (step p d op).disconnectPending = false ∧ (step p d op).ipConnected = true := by
  cases op <;> first
    | exact absurd rfl ho.1
    | exact absurd rfl ho.2
    | exact absurd ⟨_, rfl⟩ hr
    | (simp only [step, common, logConnect, ipConnect, Dev.write, Dev.read, Dev.log, Dev.setHostPort, Dev.requestRSSI, Dev.serialWrite,
        Dev.serialRead, requestMac]
       (repeat' split) <;> first | exact h | (exact absurd h (by simp_all)))

theorem hollow_step (p : Platform) (d : D) (op : Op) (ho : Stays op) (h : Hollow d) :
    (Hollow (step p d op) ∧ Silent d.trace (step p d op).trace) ∨ (Stuck (step p d op) ∧ Deaf d.trace (step p d op).trace) := by
  by_cases hr : ∃ ok, op = .run ok
  · obtain ⟨ok, rfl⟩ := hr
    exact hollow_run p ok h
  · have c := calm_step p d op ho.1 fun ok e => hr ⟨ok, e⟩
    exact .inl ⟨⟨by rw [c.lineRead]; exact h.line, by rw [c.resetPending]; exact h.reset, by rw [c.bytesToRead]; exact h.none,
      (stays_disc p op ho hr ⟨h.stay, h.ip⟩).1, (stays_disc p op ho hr ⟨h.stay, h.ip⟩).2, by rw [c.snd]; exact h.snd⟩, c.trace⟩

theorem hollow_exec (p : Platform) {d : D} (h : Hollow d) (ops : List Op) (ho : ∀ op ∈ ops, Stays op) :
    Deaf d.trace (exec (step p) d ops).trace :=
  (exec_deaf (tr := (·.trace)) (ok := Stays) (fun d op ho h => stuck_step p d op ho.1 h) (hollow_step p) h ops ho).2

theorem parseLine_hollow (p : Platform) (d : D) (h : isError d = false) (hc : d.has b!"CLOSED" = false) :
    (parseLine p d).2 = false ∧ (parseLine p d).1.resetPending = d.resetPending ∧
      (parseLine p d).1.disconnectPending = d.disconnectPending ∧ (parseLine p d).1.ipConnected = d.ipConnected := by
  unfold parseLine
  rw [if_neg (by simp [h])]
  have a0 : ∀ e : D, (parseMac e).resetPending = e.resetPending ∧ (parseMac e).disconnectPending = e.disconnectPending ∧
      (parseMac e).ipConnected = e.ipConnected ∧ (parseMac e).line = e.line := by
    intro e; unfold parseMac; split <;> exact ⟨rfl, rfl, rfl, rfl⟩
  have a1 : ∀ e : D, e.has b!"CLOSED" = false → (checkState p e).resetPending = e.resetPending ∧
      (checkState p e).disconnectPending = e.disconnectPending ∧ (checkState p e).ipConnected = e.ipConnected := by
    intro e he; unfold checkState; rw [he]; (repeat' split) <;> first | exact ⟨rfl, rfl, rfl⟩ | contradiction
  have a2 : ∀ e : D, (parseReply p e).resetPending = e.resetPending ∧ (parseReply p e).disconnectPending = e.disconnectPending ∧
      (parseReply p e).ipConnected = e.ipConnected ∧ (parseReply p e).line = e.line := by
    intro e; unfold parseReply
    split
    · unfold parseCiprecvdata; dsimp only; (repeat' split) <;> exact ⟨rfl, rfl, rfl, rfl⟩
    · dsimp only
      rw [(a0 _).1, (a0 _).2.1, (a0 _).2.2.1, (a0 _).2.2.2]
      unfold parseCsq; (repeat' split) <;> exact ⟨rfl, rfl, rfl, rfl⟩
    · exact a0 e
    · exact ⟨rfl, rfl, rfl, rfl⟩
  have a3 : ∀ e : D, (parseWait e).resetPending = e.resetPending ∧ (parseWait e).disconnectPending = e.disconnectPending ∧
      (parseWait e).ipConnected = e.ipConnected ∧ (parseWait e).line = e.line := by
    intro e; unfold parseWait; (repeat' split) <;> exact ⟨rfl, rfl, rfl, rfl⟩
  have a4 := a1 (parseReply p (parseWait d)) (by unfold Dev.has; rw [(a2 _).2.2.2, (a3 _).2.2.2]; exact hc)
  dsimp only
  rw [a4.1, a4.2.1, a4.2.2, (a2 _).1, (a2 _).2.1, (a2 _).2.2.1, (a3 _).1, (a3 _).2.1, (a3 _).2.2.1]
  exact ⟨rfl, rfl, rfl, rfl⟩

/-- The header of an empty data block was read. -/
theorem hollow_header (p : Platform) {d : D} (hv : LineOk d) (hi : RxI p d) (hrs : d.resetPending = false)
    (hdp : d.disconnectPending = false) (hip : d.ipConnected = true) {ok : Bool} {l : List Byte} {rest : List Ev}
    (ht : (run p d ok).trace = d.trace ++ .line l :: rest)
    (hreq : ((rx requestWifi (headerCC p)).after d.trace).req ≠ none) (hz : headerCC p l = some 0)
    (ops : List Op) (ho : ∀ op ∈ ops, Stays op) :
    Deaf (d.trace ++ [.line l]) (exec (step p) (run p d ok) ops).trace := by
  have hrep : d.rep = .parseStateCiprecvdata := hi.req.mp hreq
  suffices h : ∃ e, Hollow e ∧ e.trace = d.trace ++ [.line l] ∧ run p d ok = proceed p e by
    obtain ⟨e, h, h1, h2⟩ := h
    rw [h2, ← h1]
    rcases hollow_proceed p h with ⟨h1, h2⟩ | ⟨h1, h2⟩
    · exact Spec.Silent.then_deaf h2 (hollow_exec p h1 ops ho)
    · exact Spec.Deaf.then_silent h2 (exec_silent (I := Stuck) (tr := (·.trace)) (ok := Stays) (fun d op ho h => stuck_step p d op ho.1 h) h1 ops ho).2
  have hne : ∀ e : D, e.trace = d.trace → e.trace ≠ d.trace ++ .line l :: rest := by
    intro e he h
    rw [he] at h
    have := congrArg List.length h
    simp at this
  unfold run at ht ⊢
  by_cases ho : d.isOpen = false
  · rw [if_pos ho] at ht
    refine absurd ht (hne _ ?_)
    unfold tryOpen; split <;> rfl
  rw [if_neg ho, hrs] at ht ⊢
  simp only [Bool.false_eq_true, if_false] at ht ⊢
  unfold work at ht ⊢
  dsimp only at ht ⊢
  rcases fillLine_cases d (lineStop d.rep) (stopOk (x := NoHeader) d.rep).full hv with
    ⟨s, m, k, e⟩ | ⟨hlr, s, m, r, l', eq0, hd, hlo, m', c, h3, htk, hgl⟩
  · have e' : fillLineBuffer d = (d.setIo s m k, false) := e
    rw [e'] at ht
    simp only [Bool.false_eq_true, if_false] at ht
    have e2 : flushIfDisconnecting (d.setIo s m k) = d.setIo s m k := by
      unfold flushIfDisconnecting; rw [if_neg (by simp [hdp])]
    rw [e2] at ht
    have : proceed p (d.setIo s m k) = d.setIo s m k := by
      unfold proceed; rw [if_pos (by rw [hrep]; simp)]
    rw [this] at ht
    exact absurd ht (hne _ rfl)
  · have hr : r = d.rep := by
      unfold lineStop at h3
      split at h3 <;> simp at h3
      exact h3.symm
    have hend : LineEnd l' := by
      refine ⟨c, hgl, ?_⟩
      unfold lineStop at h3
      split at h3
      · assumption
      · simp at h3
    subst hr
    have e' : fillLineBuffer d = (d.gotLine s m d.rep l', true) := eq0
    rw [e'] at ht ⊢
    simp only [if_true] at ht ⊢
    have hll : l' = l := by
      have hnew : ∃ new, (if (parseLine p (d.gotLine s m d.rep l')).2 = true
          then (parseLine p (d.gotLine s m d.rep l')).1
          else proceed p (parseLine p (d.gotLine s m d.rep l')).1).trace = d.trace ++ .line l' :: new := by
        split
        · exact ⟨[], by rw [parseLine_trace]⟩
        · obtain ⟨new, h⟩ := proceed_grows p (parseLine p (d.gotLine s m d.rep l')).1
          exact ⟨new, by rw [h, parseLine_trace]; simp⟩
      obtain ⟨new, h⟩ := hnew
      have := h.symm.trans ht
      have := List.append_cancel_left this
      injection this with x _
      injection x
    subst hll
    have hh : b!"+CIPRECVDATA".isPrefixOf l' = true := by
      cases hh : b!"+CIPRECVDATA".isPrefixOf l' with
      | true => rfl
      | false => rw [header_cc_none hh] at hz; simp at hz
    rw [header_cc_some hh] at hz
    injection hz with hz
    have hno : ∀ lit : List Byte, (0 : Byte) ∉ lit → ¬ (lit <+: b!"+CIPRECVDATA" ∨ b!"+CIPRECVDATA" <+: lit) →
        (d.gotLine s m d.rep l').has lit = false := fun lit h0 h1 => by
      rw [hd.has_iff h0]; exact not_prefix hh h1
    have hhas := hd.has_iff (lit := b!"+CIPRECVDATA") (by decide)
    rw [hh] at hhas
    have herr : isError (d.gotLine s m d.rep l') = false := by
      unfold isError; rw [hno b!"ERROR" (by decide) (by decide), hno b!"SEND FAIL" (by decide) (by decide)]; simp
    obtain ⟨x1, x2, x3, x4⟩ := (parseLine_rx p (d.gotLine s m d.rep l')).2.2.2 hrep hhas herr
    obtain ⟨y1, y2, y3, y4⟩ := parseLine_hollow p (d.gotLine s m d.rep l') herr (hno _ (by decide) (by decide))
    refine ⟨_, ⟨x2, y2.trans hrs, ?_, y3.trans hdp, y4.trans hip, .inr (.inl x3)⟩, parseLine_trace _ _, by rw [y1]; rfl⟩
    rw [x4, hd.number _ (hend.header hh)]
    show addSize d.bytesToRead _ = _
    rw [hi.held.zero hlr, addSize_zero]
    exact hz

end CC1352P7
end Verif
