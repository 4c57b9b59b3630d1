import Verif.Lemmas.PolledBase
import Verif.Lemmas.RecvEspressif

/-! A driver that is run often enough, Espressif. -/

namespace Verif

open Dev Spec

namespace Espressif

theorem act_on {d : D} (h : d.lineRead = true) : (act d).lineRead = true := by
  unfold act
  split
  all_goals first
    | (simp [h]; done)
    | (unfold actCwjap; simp [h])
    | (unfold actCipstart; dsimp only; (repeat' split) <;> simp [h])
    | (unfold actConnected; dsimp only; (repeat' split) <;> simp [h])
    | (unfold actCiprecvdata; dsimp only; (repeat' split) <;> simp [h])
    | (unfold actReceiving; dsimp only; (repeat' split) <;> first | exact receive_on h | exact h)
    | ((try dsimp only); (repeat' split) <;> simp [h])

theorem act_zero {d : D} (h : d.bytesToRead = 0) : (act d).bytesToRead = 0 := by
  unfold act
  split
  all_goals first
    | (simp [h]; done)
    | (unfold actCwjap; simp [h]; done)
    | (unfold actCipstart; dsimp only; (repeat' split) <;> simp [h])
    | (unfold actConnected; dsimp only; (repeat' split) <;> simp [h])
    | (unfold actCiprecvdata; dsimp only; (repeat' split) <;> simp [h])
    | (unfold actReceiving; rw [if_neg (by omega)]; split <;> exact h)
    | ((try dsimp only); (repeat' split) <;> simp [h])

theorem act_unwaited {d : D} (h : d.snd = .sendCiprecvdata) (hw : d.wait = none) : (act d).wait = none := by
  simp only [act, h]
  unfold actCiprecvdata
  dsimp only
  (repeat' split) <;> simp [hw]

theorem parseLine_on (p : Platform) (d : D) (ht : d.typ = .tcp) (hl : d.lineRead = true) (h : (parseLine p d).1.lineRead = false) :
    d.rep = .parseStateCiprecvdata ∧ d.has b!"+CIPRECVDATA" = true := by
  have hs : (parseSendFail d).lineRead = d.lineRead ∧ (parseSendFail d).rep = d.rep ∧ (parseSendFail d).line = d.line ∧
      (parseSendFail d).typ = d.typ := by
    unfold parseSendFail
    (repeat' split) <;> simp
  obtain ⟨s1, s2, s3, s4⟩ := hs
  have hw : ∀ e : D, (parseWait e).lineRead = e.lineRead ∧ (parseWait e).rep = e.rep ∧ (parseWait e).line = e.line ∧
      (parseWait e).typ = e.typ := by
    intro e
    unfold parseWait
    (repeat' split) <;> simp
  obtain ⟨w1, w2, w3, w4⟩ := hw (parseSendFail d)
  have hc : ∀ e : D, e.typ = .tcp → (checkState p e).lineRead = e.lineRead := by
    intro e he; unfold checkState; dsimp only; rw [if_pos he]; (repeat' split) <;> rfl
  have hy : ∀ e : D, (parseReply p e).typ = e.typ := by
    intro e
    unfold parseReply
    split <;> (try dsimp only) <;> (repeat' split) <;> simp
  have hp : ∀ e : D, e.lineRead = true → (parseReply p e).lineRead = false →
      e.rep = .parseStateCiprecvdata ∧ e.has b!"+CIPRECVDATA" = true := by
    intro e he h
    unfold parseReply at h
    split at h
    all_goals first
      | (rename_i hr; refine ⟨hr, ?_⟩
         revert h; unfold parseCiprecvdata; dsimp only; split
         · intro _; assumption
         · simp [he])
      | (revert h; (try dsimp only); (repeat' split) <;> simp [he]; done)
      | (revert h; simp [he])
  unfold parseLine at h
  split at h
  · exact absurd (hl.symm.trans h) (by simp)
  · dsimp only at h
    rw [hc _ (((hy _).trans w4).trans (s4.trans ht))] at h
    obtain ⟨h1, h2⟩ := hp _ (w1.trans (s1.trans hl)) h
    exact ⟨(w2.trans s2) ▸ h1, by unfold Dev.has at h2 ⊢; rw [← s3, ← w3]; exact h2⟩

theorem parseLine_ask (p : Platform) (d : D) (hr : d.rep = .waitCiprecvdata ∨ d.rep = .parseStateCiprecvdata) (hw : d.wait = none) :
    (parseLine p d).1.wait = none := by
  have h0 : (parseSendFail d).wait = none ∧ (parseSendFail d).rep = d.rep := by
    unfold parseSendFail
    split
    · exact ⟨rfl, rfl⟩
    · exact ⟨hw, rfl⟩
  have h1 : parseWait (parseSendFail d) = parseSendFail d := by unfold parseWait Dev.waitMatches; simp [h0.1]
  have hc : ∀ e : D, e.wait = none → (checkState p e).wait = none := by
    intro e he
    unfold checkState
    dsimp only
    (repeat' split) <;> simp [he]
  unfold parseLine
  split
  · rfl
  · rw [h1]
    refine hc _ ?_
    rw [← h0.2] at hr
    rcases hr with hr | hr
    · simp only [parseReply, hr]; exact h0.1
    · simp only [parseReply, hr]
      unfold parseCiprecvdata
      (repeat' split) <;> simp_all

theorem parseLine_return (p : Platform) (d : D) (h : (parseLine p d).2 = true) : (parseLine p d).1.lineRead = d.lineRead := by
  unfold parseLine at h ⊢
  split
  · rfl
  · rename_i hz
    rw [if_neg hz] at h
    simp at h

theorem handleReset_held {d : D} (hq : RxQuiet d.ser) : (handleReset d).ser.held = 0 := by
  have h0 : d.flushSer.ser.held = 0 := rfl
  obtain ⟨h1, h2⟩ := held_cmd (d := d.flushSer) (quiet_flushSer hq) b!"AT+RST"
  obtain ⟨h3, _⟩ := held_arg h2 lineEnd
  have e : (handleReset d).ser = ((d.flushSer.cmd b!"AT+RST").arg lineEnd).ser := rfl
  rw [e, h3, h1, h0]

/-- Payload and what else holds when it is requested. -/
abbrev Pr (p : Platform) (d : D) : Prop := RxI p d ∧ Primed requestWifi (headerEsp p) .waitCiprecvdata .okReply d

theorem pr_sections (p : Platform) : Sections p (Pr p) where
  fail d h ho := ⟨(rxI_sections p).fail d h.1 ho, h.2.note [] (by simp) rfl rfl rfl rfl rfl⟩
  reset d h hr := ⟨(rxI_sections p).reset d h.1 hr, .zero (by unfold handleReset; simp) (by unfold handleReset; simp) (by unfold handleReset; simp)⟩
  line d s m l r ha h hr hlr hra hl hk hend := by
    have hI := (rxI_sections p).line d s m l r ha h.1 hr hlr hra hl hk hend
    refine ⟨hI, ?_⟩
    obtain ⟨a1, a5, a2, a4⟩ := parseLine_rx p (d.gotLine s m r l) h.1.tcp
    have h0 := h.1.rx.held.zero hlr
    have hhas := hl.has_iff (lit := b!"+CIPRECVDATA") (by decide)
    have hlen : l.length ≤ lineMax := by
      have h1 := (List.getElem?_eq_some_iff.mp hl.zero).1
      have h2 := hk.len
      omega
    rcases hend.header (p := p) h.1.tcp hlen h.1.parse with ⟨rfl, hn⟩ | ⟨hrw, rfl, h13, hpre, hh⟩
    · obtain ⟨x, y, z⟩ := a2 h.1.parse
      refine ⟨fun hb => absurd (z.trans h0) hb, fun hb => ?_, fun _ hoff => ?_⟩
      · have hx : d.rep = .waitCiprecvdata := y.mp hb
        exact parseLine_ask p _ (.inl hx) (h.2.ask hx)
      · exact absurd (parseLine_on p (d.gotLine s m d.rep l) h.1.tcp hlr hoff).1 h.1.parse
    · rw [hpre] at hhas
      have hne : isError (d.gotLine s m Rep.parseStateCiprecvdata l) = false := by
        unfold isError
        rw [hl.has_iff (by decide), hl.has_iff (by decide),
          not_prefix hpre (by decide), not_prefix hpre (by decide)]
        rfl
      obtain ⟨x1, x2, x3, x4⟩ := a4 rfl hhas hne
        (by rw [hl.has_iff (by decide), not_prefix hpre (by decide)])
        (by rw [hl.has_iff (by decide), not_prefix hpre (by decide)])
      have hw := parseLine_ask p (d.gotLine s m Rep.parseStateCiprecvdata l) (.inr rfl) (h.2.ask hrw)
      refine ⟨fun _ => ⟨hw, x1, ?_⟩, fun _ => hw, fun hf _ => ?_⟩
      · exact parseLine_reset (p := p) (d := d.gotLine s m Rep.parseStateCiprecvdata l) hr (by unfold parseLine; rw [if_neg (by simp [hne])])
      · exact primed_header h.1.rx hI.rx (parseLine_trace _ _) hrw hh hf
  drop d h hr hd hs := ⟨(rxI_sections p).drop d h.1 hr hd hs, h.2.drop⟩
  csq d h hr hw hp ht hq hl := ⟨(rxI_sections p).csq d h.1 hr hw hp ht hq hl,
    .zero (by simpa using h.1.rx.held.zero hl) (by simp) (by simpa using hl)⟩
  mac d h hr hw hp ht hq hl := ⟨(rxI_sections p).mac d h.1 hr hw hp ht hq hl,
    .zero (by simpa using h.1.rx.held.zero hl) (by simp) (by simpa using hl)⟩
  act d h hr hw hp ht := by
    refine ⟨(rxI_sections p).act d h.1 hr hw hp ht, ?_⟩
    by_cases hb : d.bytesToRead = 0
    · refine ⟨fun x => absurd (act_zero hb) x, fun hx => ?_, fun hf hoff => ?_⟩
      · by_cases hs : d.snd = .sendCiprecvdata
        · exact act_unwaited hs hw
        · exact absurd hx (act_rep hs hp)
      · cases hl : d.lineRead with
        | true => rw [act_on hl] at hoff; simp at hoff
        | false =>
          obtain ⟨new, hn⟩ : ∃ new, (act d).trace = d.trace ++ new := Since.grows (eff_act (st := false) d fun h => by simp at h)
          exact absurd hb (h.2.full (filled_append (by rw [← hn]; exact hf)) hl)
    · rcases (h.1.rx.held hb).2 with hs | hs
      · have e : act d = actReceiving d := by simp only [act, hs]
        rw [e]
        unfold actReceiving
        rw [if_pos (by omega)]
        dsimp only
        by_cases hq : d.receive.2 = true
        · rw [if_pos ⟨hq, (by have := (receive_typ d); rw [this]; exact h.1.tcp)⟩]
          exact .zero (receive_true hq).2.2.1 (by simp) (receive_true hq).2.1
        · rw [if_neg fun x => hq x.1, receive_false (by simpa using hq)]
          exact h.2.note [] (by simp) rfl rfl rfl rfl rfl
      · have e : act d = d := by simp only [act, hs]
        rw [e]; exact h.2

theorem pr_calls (p : Platform) : Calls0 (Pr p) where
  io d s m k ha h := ⟨(rxI_calls p).io d s m k ha h.1, primed_calls.io d s m k ha h.2⟩
  isOpen d b h := ⟨(rxI_calls p).isOpen d b h.1, primed_calls.isOpen d b h.2⟩
  conn d h a b := ⟨(rxI_calls p).conn d h.1 a b, primed_calls.conn d h.2 a b⟩
  disc0 d h a := ⟨(rxI_calls p).disc0 d h.1 a, primed_calls.disc0 d h.2 a⟩
  disc d h a := ⟨(rxI_calls p).disc d h.1 a, primed_calls.disc d h.2 a⟩
  write0 d h a := ⟨(rxI_calls p).write0 d h.1 a, primed_calls.write0 d h.2 a⟩
  write d b h a := ⟨(rxI_calls p).write d b h.1 a, primed_calls.write d b h.2 a⟩
  read d n h := ⟨(rxI_calls p).read d n h.1, primed_calls.read d n h.2⟩
  rssi d h := ⟨(rxI_calls p).rssi d h.1, primed_calls.rssi d h.2⟩
  userTx d s b a h := ⟨(rxI_calls p).userTx d s b a h.1, primed_calls.userTx d s b a h.2⟩
  userRx d s b a h := ⟨(rxI_calls p).userRx d s b a h.1, primed_calls.userRx d s b a h.2⟩

theorem pr_host (p : Platform) (d : D) (a : Option (List Byte)) (q : Nat) (h : Pr p d) :
    Pr p { d with host := a, port := q, typ := .tcp } := ⟨rxI_host p d a q h.1, primed_calls.host d a q .tcp h.2⟩

theorem pr_own (p : Platform) : Own (Pr p) where
  reset d h := ⟨(rxI_own p).reset d h.1, .zero rfl (by simp [resetStates]) rfl⟩
  ext d e h := ⟨(rxI_own p).ext d e h.1, h.2.note [] (by simp) rfl rfl rfl rfl rfl⟩
  ub d h := ⟨(rxI_own p).ub d h.1, h.2.note [] (by simp) rfl rfl rfl rfl rfl⟩

theorem act_fine {d : D} (h : Fine .serialError d) : Fine .serialError (act d) := by
  have hn := h.snd
  refine h.set ?_ ?_ ?_
  all_goals
    unfold act
    split
    all_goals first
      | contradiction
      | (simp; done)
      | exact handleConnect_ne (by simp_all) (by decide)
      | (unfold actCwjap; simp; done)
      | (unfold actCipstart; dsimp only; (repeat' split) <;> simp; done)
      | (unfold actConnected; dsimp only; (repeat' split) <;> first | exact handleDisconnect_ne (by simp_all) (by decide) | (simp_all; done))
      | (unfold actCiprecvdata; dsimp only; (repeat' split) <;> first | exact handleDisconnect_ne (by simp_all) (by decide) | (simp_all; done))
      | (unfold actReceiving; dsimp only; (repeat' split) <;> simp_all; done)
      | ((try dsimp only); (repeat' split) <;> first | exact handleDisconnect_ne (by simp_all) (by decide) | exact handleConnect_ne (by simp_all) (by decide) | (simp_all; done))

theorem parseLine_fine (p : Platform) {d : D} (h : Fine .serialError d) : Fine .serialError (parseLine p d).1 := by
  have hw : Fine Snd.serialError (parseWait (parseSendFail d)) := by
    have h1 : Fine Snd.serialError (parseSendFail d) := by
      unfold parseSendFail
      (repeat' split) <;> exact h.same rfl rfl rfl
    unfold parseWait
    (repeat' split) <;> exact h1.same rfl rfl rfl
  have hc : ∀ e : D, Fine Snd.serialError e → Fine Snd.serialError (checkState p e) := by
    intro e he
    have hn := he.snd
    unfold checkState
    dsimp only
    (repeat' split) <;> refine he.set (by simp) (by simp) ?_ <;> simp [hn]
  have hp : ∀ e : D, Fine Snd.serialError e → Fine Snd.serialError (parseReply p e) := by
    intro e he
    have hn := he.snd
    unfold parseReply
    split <;> (try dsimp only) <;> (repeat' split) <;> refine he.set (by simp) (by simp) ?_ <;>
      first | (simp [hn]; done) | exact handleDisconnect_ne hn (by decide)
  unfold parseLine
  split
  · exact h.same rfl rfl rfl
  · exact hc _ (hp _ hw)

theorem proceed_fine (p : Platform) {d : D} (h : Fine .serialError d) : Fine .serialError (proceed p d) := by
  unfold proceed
  split
  · exact h
  · split
    · exact h.same rfl rfl rfl
    · have h' : Fine .serialError d.askSpace := h.same rfl rfl rfl
      unfold sendNext
      split
      · exact h'.same rfl rfl rfl
      · split
        · exact h'.same (by simp) (by simp) (by simp)
        · exact act_fine h'

theorem run_fine (p : Platform) {d : D} (h : Fine .serialError d) (ok : Bool) : Fine .serialError (run p d ok) := by
  unfold run
  rw [if_neg (by simp [h.isOpen])]
  split
  · refine h.set (by unfold handleReset; simp) (by unfold handleReset; simp [h.free]) ?_
    unfold handleReset
    dsimp only [Dev.arg_snd, Dev.cmd_snd]
    split <;> decide
  · have hf : Fine .serialError (Espressif.fillLineBuffer d).1 := h.same (by simp) (by simp) (by simp)
    unfold work
    dsimp only
    split
    · split
      · exact parseLine_fine p hf
      · exact proceed_fine p (parseLine_fine p hf)
    · refine proceed_fine p ?_
      unfold flushIfDisconnecting
      split
      · exact hf.same (by simp) (by simp) (by simp)
      · exact hf

/-- One call of `run()`. -/
theorem proceed_backlog (p : Platform) {k : Nat} {d : D} (hr : Pr p d) (hq : RxQuiet d.ser) (hv : Ser.RxOk d.ser) (hl : LineOk d)
    (hf : Fine .serialError d) (ht : 20 ≤ d.ser.txFree) (hd : Filled requestWifi (headerEsp p) d.trace) (hp : Pends k d) :
    Backlog k 0 (proceed p d) := by
  cases hx : d.lineRead with
  | true =>
    refine hp.on ((eff_proceed p (st := false) d fun h => by simp at h).eased hq hv hl) hx ?_
    unfold proceed
    split
    · exact hx
    · split
      · exact hx
      · unfold sendNext
        split
        · exact hx
        · split
          · simpa using hx
          · exact act_on hx
  | false =>
    have hb := hr.2.full hd hx
    obtain ⟨h1, h2, _⟩ := hr.2.idle hb
    have hs := (hr.1.rx.held hb).2.resolve_right hf.snd
    have hsp : 20 ≤ d.serSpace := Nat.le_trans ht (by rw [← Dev.txFree_askSpace]; exact Ser.txFree_sync d.ser)
    unfold proceed
    rw [if_neg (by simp [h1, h2]), if_neg (by omega), sendNext_off p (d := askSpace d) hx]
    have e : act (askSpace d) = actReceiving (askSpace d) := by
      have : (askSpace d).snd = .receiving := hs
      simp only [act, this]
    rw [e]
    unfold actReceiving
    rw [if_pos (by show 0 < d.bytesToRead; omega)]
    have hp' : Pends k d.askSpace := hp.same (by show d.ser.sync.held = _; unfold Ser.held; rw [hq.sync]) rfl rfl rfl
    have hq' : RxQuiet d.askSpace.ser := hq.later (Ser.later_spaceAvailable d.ser)
    have hv' : Ser.RxOk d.askSpace.ser := (Eff.askSpace (x := HeaderEnd) (strict := false) d).rxOk hv
    dsimp only
    split
    · rename_i hz
      exact hp'.take hq' hv' hx rfl (by simp) (fun _ => (receive_true hz.1).2.1) (fun h => by rw [h] at hz; simp at hz)
    · rename_i hz
      have hz : ¬ (askSpace d).receive.2 = true := fun x => hz ⟨x, (receive_typ _).trans hr.1.tcp⟩
      refine hp'.take hq' hv' hx rfl (by simp) (fun h => absurd h hz) (fun h => ?_)
      rw [receive_false h]
      exact ⟨hx, rfl⟩

theorem proceed_grows' (p : Platform) (d : D) : ∃ new, (proceed p d).trace = d.trace ++ new :=
  Since.grows (eff_proceed p (st := false) d fun h => by simp at h)

/-- What holds all the time. -/
structure Tended (p : Platform) (base : List Ev) (size : Nat) (d : D) : Prop where
  inv : TcpInv d
  pr : Pr p d
  quiet : RxQuiet d.ser
  fine : Fine .serialError d
  cells : d.ser.rx.ring.size = size
  small : size < 2 ^ 64
  roomy : Honours requestWifi (headerEsp p) d.trace → Roomy requestWifi (headerEsp p) (size - 30) d.trace
  grown : ∃ new, d.trace = base ++ new

theorem work_backlog (p : Platform) {base : List Ev} {k c : Nat} {d : D} (hi : TcpInv d) (hpr : Pr p d) (hq : RxQuiet d.ser)
    (hfi : Fine .serialError d) (hg : ∃ new, d.trace = base ++ new) (hrp : d.resetPending = false) (hc : c ≤ k)
    (ht : 20 ≤ d.ser.txFree) (hT : Kept requestWifi (headerEsp p) k base (work p d).trace) (hw : Backlog k c d) :
    Backlog k 0 (work p d) := by
  have hv := hi.1.rx
  have hl := hi.1.line
  cases hlr : d.lineRead with
  | false =>
    have ew : work p d = proceed p (flushIfDisconnecting d) := by
      unfold work
      have e : fillLineBuffer d = (d, false) := fillLine_off d _ hlr
      rw [e]; rfl
    rw [ew] at hT ⊢
    obtain ⟨new, hn⟩ := proceed_grows' p (flushIfDisconnecting d)
    rw [hn] at hT
    have hT1 := kept_append hT
    obtain ⟨new1, hn1⟩ : ∃ new, (flushIfDisconnecting d).trace = d.trace ++ new :=
      Since.grows (eff_flushIfDisconnecting (st := false) d fun h => by simp at h)
    have hd : Filled requestWifi (headerEsp p) d.trace := filled_append (by rw [← hn1]; exact hT1.2.1)
    have hb := hpr.2.full hd hlr
    have hp := hw.off hc hlr hb (hi.2.1 hb).2.1
    have key : Pr p (flushIfDisconnecting d) ∧ RxQuiet (flushIfDisconnecting d).ser ∧ Fine .serialError (flushIfDisconnecting d) ∧
        20 ≤ (flushIfDisconnecting d).ser.txFree ∧ Pends k (flushIfDisconnecting d) := by
      unfold flushIfDisconnecting
      split
      · rename_i hx
        exact ⟨(pr_sections p).drop d hpr hrp hx.1 hx.2, hq.later (Eff.flushReadBuffer (x := HeaderEnd) (strict := false) d (by simp)).later,
          hfi.same (by simp) (by simp) (by simp), Nat.le_trans ht (flushReadBuffer_txFree d), hp.drop hq hv⟩
      · exact ⟨hpr, hq, hfi, ht, hp⟩
    obtain ⟨k1, k2, k3, k4, k5⟩ := key
    have he := eff_flushIfDisconnecting (st := false) d fun h => by simp at h
    exact proceed_backlog p k1 k2 (he.rxOk hv) (he.lineOk hl) k3 k4 hT1.2.1 k5
  | true =>
    have ht0 : d.ser.txFree ≤ (fillLineBuffer d).1.ser.txFree := fillLine_txFree d _
    rcases d.fillLine_cases (lineStop d.typ d.rep) (stopOk d.typ d.rep).full hl with
      ⟨s, m, j, e⟩ | ⟨_, s, m, r, l, e, h1, h2, m', c', h3, h6, h5⟩
    · have e' : Espressif.fillLineBuffer d = (d.setIo s m j, false) := e
      have ew : work p d = proceed p (flushIfDisconnecting (d.setIo s m j)) := by
        unfold work; rw [e']; rfl
      rw [ew] at hT ⊢
      have hh : s.held = 0 := by
        rcases fillLine_eased hq hv hl (lineStop d.typ d.rep) (stopOk d.typ d.rep).full hlr with ⟨_, g, _⟩ | ⟨l, g, _⟩
        · rw [e] at g; exact g
        · rw [e] at g; simp at g
      have he := (eff_flushIfDisconnecting (st := false) (d.setIo s m j) fun h => by simp at h).trans
        (eff_proceed p (st := false) (flushIfDisconnecting (d.setIo s m j)) fun h => by simp at h)
      have hf : Eff HeaderEnd false d (fillLineBuffer d).1 := .fillLine _ _ (stopOk _ _)
      rw [e'] at hf
      have := (he.eased (hq.later (later_setIo e)) (hf.rxOk hv) (hf.lineOk hl)).held
      have e3 : (d.setIo s m j).ser.held = s.held := rfl
      exact .inl (by omega)
    · have hend : LineEnd d l r := ⟨m', c', h3, h6, h5⟩
      have hra : RepAfter d l r := repAfter_of_stop h3 h6
      have e' : Espressif.fillLineBuffer d = (d.gotLine s m r l, true) := e
      have ew : work p d = if (parseLine p (d.gotLine s m r l)).2 then (parseLine p (d.gotLine s m r l)).1
          else proceed p (parseLine p (d.gotLine s m r l)).1 := by
        unfold work; rw [e']; rfl
      rw [e'] at ht0
      have h4 := (pr_sections p).line d s m l r (later_gotLine e) hpr hrp hlr hra h1 h2 hend
      have hTl : Kept requestWifi (headerEsp p) k base (d.trace ++ [.line l]) := by
        have e1 : (parseLine p (d.gotLine s m r l)).1.trace = d.trace ++ [.line l] := parseLine_trace _ _
        rw [ew] at hT
        split at hT
        · rw [e1] at hT; exact hT
        · obtain ⟨new, hn⟩ := proceed_grows' p (parseLine p (d.gotLine s m r l)).1
          rw [hn, e1] at hT
          exact kept_append hT
      have hlong : k ≤ l.length := by
        obtain ⟨new, hn⟩ := hg
        exact hTl.2.2 (new ++ [.line l]) (by rw [hn]; simp) l (by simp)
      have hb := backlog_fill hw hc hq hv hl (lineStop d.typ d.rep) (stopOk d.typ d.rep).full hlr (by
        intro l' hl'
        rw [e] at hl'
        have e2 : (d.gotLine s m r l).trace = d.trace ++ [.line l] := rfl
        rw [e2] at hl'
        simp only [List.append_cancel_left_eq, List.cons.injEq, Ev.line.injEq, and_true] at hl'
        rw [← hl']; exact hlong)
      rw [e] at hb
      rcases hb with ⟨g, _⟩ | ⟨_, g1, g2⟩
      · simp at g
      · have g2 : (d.gotLine s m r l).ser.held ≤ k := g2
        have hf : Eff HeaderEnd false d (fillLineBuffer d).1 := .fillLine _ _ (stopOk _ _)
        rw [e'] at hf
        have hq1 : RxQuiet (d.gotLine s m r l).ser := hq.later (later_gotLine e)
        have hx := eff_parseLine (st := false) p (d.gotLine s m r l)
        have hser := parseLine_ser p (d.gotLine s m r l)
        have hfl := (parseLine_lbFill p (d.gotLine s m r l)).trans g1
        have hT4 : Filled requestWifi (headerEsp p) (parseLine p (d.gotLine s m r l)).1.trace := by
          rw [parseLine_trace]; exact hTl.2.1
        have hon : (parseLine p (d.gotLine s m r l)).2 = true → (parseLine p (d.gotLine s m r l)).1.lineRead = true := by
          intro hz
          exact (parseLine_return p _ hz).trans hlr
        rw [ew]
        split
        · rename_i hz
          refine .inr (.inl ⟨hon hz, ?_⟩)
          unfold Dev.load
          rw [hfl, hser]; omega
        · exact proceed_backlog p h4 (by rw [hser]; exact hq1) (hx.rxOk (hf.rxOk hv)) (hx.lineOk (hf.lineOk hl))
            (parseLine_fine p (hfi.same rfl rfl rfl)) (by rw [hser]; exact Nat.le_trans ht ht0) hT4
            (.of_line hfl (by rw [hser]; exact g2) (h4.2.full hT4))

theorem run_backlog (p : Platform) {base : List Ev} {size k c : Nat} {d : D} (h : Tended p base size d) (hc : c ≤ k)
    (ht : 20 ≤ d.ser.txFree) (hT : Kept requestWifi (headerEsp p) k base (run p d true).trace) (hw : Backlog k c d) :
    Backlog k 0 (run p d true) := by
  have e0 : run p d true = if d.resetPending then handleReset d else work p d := by
    unfold run
    rw [if_neg (by simp [h.fine.isOpen])]
  rw [e0] at hT ⊢
  split
  · exact .inl (by rw [handleReset_held h.quiet]; exact Nat.le_refl _)
  · rename_i hr
    rw [if_neg hr] at hT
    exact work_backlog p h.inv h.pr h.quiet h.fine h.grown (by simpa using hr) hc ht hT hw

theorem connect_use (d : D) : (Espressif.connect d).1.ser = d.ser ∧ (Espressif.connect d).1.lbFill = d.lbFill ∧
    (Espressif.connect d).1.lineRead = d.lineRead ∧ (Espressif.connect d).1.bytesToRead = d.bytesToRead := by
  unfold Espressif.connect Dev.ipConnect
  dsimp only
  (repeat' split) <;> exact ⟨rfl, rfl, rfl, rfl⟩

theorem step_use (p : Platform) {d : D} (op : Op) (hu : isUse op = true) (hk : d.serialLocked = false) :
    (step p d op).ser.held = 0 ∨ ((step p d op).ser.held = d.ser.held ∧ (step p d op).lbFill = d.lbFill ∧
      (step p d op).lineRead = d.lineRead ∧ (step p d op).bytesToRead = d.bytesToRead) := by
  cases op
  case connect =>
    obtain ⟨a1, a2, a3, a4⟩ := connect_use d
    obtain ⟨b1, b2, b3, b4⟩ := logConnect_use (Espressif.connect d)
    refine .inr ⟨?_, b2.trans a2, b3.trans a3, b4.trans a4⟩
    show (Dev.logConnect (Espressif.connect d)).ser.held = _
    rw [b1, a1]
  case resetStates => exact .inl rfl
  case run => simp [isUse] at hu
  case serialLock => simp [isUse] at hu
  case irq => simp [isUse] at hu
  case closePort => simp [isUse] at hu
  case requestMac => exact .inr ⟨rfl, rfl, rfl, rfl⟩
  case setSSID => exact .inr ⟨rfl, rfl, rfl, rfl⟩
  case setPassword => exact .inr ⟨rfl, rfl, rfl, rfl⟩
  all_goals
    obtain ⟨a1, a2, a3, a4⟩ := common_use d _ hu hk
    exact .inr ⟨by show Ser.held (Dev.ser (Dev.common d _)) = _; rw [a1], a2, a3, a4⟩

theorem step_fine (p : Platform) {d : D} (op : Op) (h1 : op ≠ .closePort) (h2 : op ≠ .serialLock) (h : Fine .serialError d) :
    Fine .serialError (step p d op) := by
  cases op
  case run ok => exact run_fine p h ok
  case closePort => exact absurd rfl h1
  case serialLock => exact absurd rfl h2
  case connect =>
    simp only [step]
    unfold Dev.logConnect Espressif.connect Dev.ipConnect
    dsimp only
    (repeat' split) <;> exact h.same rfl rfl rfl
  case resetStates => exact ⟨h.isOpen, rfl, by simp [step, resetStates]⟩
  case disconnect =>
    simp only [step, Dev.common]
    unfold Dev.disconnect
    split <;> exact h.same rfl rfl rfl
  case write bs =>
    simp only [step, Dev.common]
    unfold Dev.write
    dsimp only
    (repeat' split) <;> exact h.same rfl rfl rfl
  case serialWrite s => simp only [step, Dev.common]; unfold Dev.serialWrite; rw [h.free]; exact h
  case serialRead s => simp only [step, Dev.common]; unfold Dev.serialRead; rw [h.free]; exact h
  all_goals exact h.same rfl rfl rfl

theorem step_grows (p : Platform) {d : D} (op : Op) : ∃ new, (step p d op).trace = d.trace ++ new := by
  cases op
  case run ok => exact Since.grows (eff_run (st := false) p d ok fun h => by simp at h)
  all_goals
    refine api_grows (step_api p d _ (by simp))

theorem step_tended (p : Platform) {base : List Ev} {size : Nat} {d : D} (op : Op) (ho : TcpOp op) (h1 : op ≠ .closePort) (h2 : op ≠ .serialLock)
    (h : Tended p base size d) : Tended p base size (step p d op) where
  inv := step_tcpInv p op ho h.inv
  pr := step_stages0 (pr_sections p) (pr_calls p) (pr_own p) h.inv.1.line h.pr op
    fun a q t e => by rw [ho a q t e]; exact pr_host p d a _ h.pr
  quiet := h.quiet.later (later_step p d op)
  fine := step_fine p op h1 h2 h.fine
  cells := (later_step p d op).rxSize.trans h.cells
  small := h.small
  roomy := roomy_step p d op h.quiet (by unfold Ser.readBufferSize; rw [h.cells]; exact h.small)
    (by unfold Ser.readBufferSize; rw [h.cells]) h.roomy
  grown := by
    obtain ⟨n1, e1⟩ := h.grown
    obtain ⟨n2, e2⟩ := step_grows p (d := d) op
    exact ⟨n1 ++ n2, by rw [e2, e1]; simp⟩

theorem serving (p : Platform) (base : List Ev) (size k : Nat) :
    Serving (step p) TcpOp (Tended p base size) (Kept requestWifi (headerEsp p) k base) k 30 size where
  inv d op ho h1 h2 _ h := step_tended p op ho h1 h2 h
  hist d op h ht := by
    obtain ⟨n, e⟩ := step_grows p (d := d) op
    rw [e] at ht
    exact kept_append ht
  irq _ _ := rfl
  use d op hu h := step_use p op hu h.fine.free
  run d c h hc ht hT hw := run_backlog p h hc ht hT hw
  rx _ h := h.inv.1.rx
  cells _ h := h.cells
  room d h ht := by
    rw [← h.pr.1.rx.due]
    exact (h.roomy ht.1).due

end Espressif

end Verif
