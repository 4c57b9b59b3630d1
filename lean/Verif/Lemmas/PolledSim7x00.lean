import Verif.Lemmas.PolledBase
import Verif.Lemmas.RecvSim7x00

/-! A driver that is run often enough, SIM7x00. -/

namespace Verif

open Dev Spec

namespace Sim7x00

theorem act_on {d : D} (h : d.lineRead = true) : (act d).lineRead = true := by
  unfold act
  split
  all_goals first
    | (simp [h]; done)
    | (unfold actCgsockcont; dsimp only; (repeat' split) <;> simp [h])
    | (unfold actCipopen; dsimp only; (repeat' split) <;> simp [h])
    | (unfold actConnected; dsimp only; (repeat' split) <;> simp [h])
    | (unfold actCiprxget2; dsimp only; (repeat' split) <;> simp [h])
    | (unfold actReceiving; dsimp only; (repeat' split) <;> first | exact receive_on h | exact h)
    | ((try dsimp only); (repeat' split) <;> simp [h])

theorem act_zero {d : D} (h : d.bytesToRead = 0) : (act d).bytesToRead = 0 := by
  unfold act
  split
  all_goals first
    | (simp [h]; done)
    | (unfold actCgsockcont; dsimp only; (repeat' split) <;> simp [h])
    | (unfold actCipopen; dsimp only; (repeat' split) <;> simp [h])
    | (unfold actConnected; dsimp only; (repeat' split) <;> simp [h])
    | (unfold actCiprxget2; dsimp only; (repeat' split) <;> simp [h])
    | (unfold actReceiving; rw [if_neg (by omega)]; split <;> exact h)
    | ((try dsimp only); (repeat' split) <;> simp [h])

theorem act_unwaited {d : D} (h : d.snd = .sendCiprxget2) (hw : d.wait = none) : (act d).wait = none := by
  simp only [act, h]
  unfold actCiprxget2
  dsimp only
  (repeat' split) <;> simp [hw]

theorem parseLine_on (p : Platform) (d : D) (hl : d.lineRead = true) (h : (parseLine p d).1.lineRead = false) :
    d.rep = .ciprxget2 ∧ d.has b!"+CIPRXGET: 2,0," = true := by
  have hw : (parseWait d).1.lineRead = d.lineRead ∧ (parseWait d).1.rep = d.rep ∧ (parseWait d).1.line = d.line := by
    unfold parseWait
    (repeat' split) <;> simp
  obtain ⟨w1, w2, w3⟩ := hw
  have hc : ∀ e : D, (checkState e).lineRead = e.lineRead := by
    intro e; unfold checkState; split <;> simp
  have hp : ∀ e : D, e.lineRead = true → (parseReply p e).1.lineRead = false →
      e.rep = .ciprxget2 ∧ e.has b!"+CIPRXGET: 2,0," = true := by
    intro e he h
    unfold parseReply at h
    split at h
    all_goals first
      | (rename_i hr; refine ⟨hr, ?_⟩
         revert h; unfold SimDev.parseCiprxget2; dsimp only; split
         · intro _; assumption
         · simp [he])
      | (revert h; (try dsimp only); (repeat' split) <;> simp [he]; done)
      | (revert h; simp [he])
  unfold parseLine at h
  dsimp only at h
  split at h
  · rw [w1, hl] at h; simp at h
  · split at h
    · obtain ⟨h1, h2⟩ := hp _ (w1.trans hl) h
      exact ⟨w2 ▸ h1, by unfold Dev.has at h2 ⊢; rw [← w3]; exact h2⟩
    · dsimp only at h
      rw [hc] at h
      obtain ⟨h1, h2⟩ := hp _ (w1.trans hl) h
      exact ⟨w2 ▸ h1, by unfold Dev.has at h2 ⊢; rw [← w3]; exact h2⟩

theorem parseLine_ask (p : Platform) (d : D) (hr : d.rep = .ciprxget2) (hw : d.wait = none) :
    (parseLine p d).1.wait = none ∧ (parseLine p d).2 = false := by
  have h1 : parseWait d = (d, false) := by unfold parseWait; simp [hw]
  have hc : ∀ e : D, e.wait = none → (checkState e).wait = none := by
    intro e he
    unfold checkState SimDev.checkConnectionState
    (repeat' split) <;> simp [he]
  unfold parseLine
  rw [h1]
  simp only [Bool.false_eq_true, if_false, parseReply, hr]
  refine ⟨?_, trivial⟩
  refine hc _ ?_
  unfold SimDev.parseCiprxget2
  (repeat' split) <;> simp_all

/-- Payload and what else holds when it is requested. -/
abbrev Pr (p : Platform) (d : D) : Prop := RxI p d ∧ Primed requestSim (headerSim p) .ciprxget2 .okReply d

theorem pr_sections (p : Platform) : Sections p (Pr p) where
  fail d h ho := ⟨(rxI_sections p).fail d h.1 ho, h.2.note [] (by simp) rfl rfl rfl rfl rfl⟩
  reset d h hr hk := ⟨(rxI_sections p).reset d h.1 hr hk, .zero (by unfold handleReset; simp) (by unfold handleReset; simp) (by unfold handleReset; simp)⟩
  line d s m l ha h hr hlr hl hk := by
    refine ⟨(rxI_sections p).line d s m l ha h.1 hr hlr hl hk, ?_⟩
    obtain ⟨a1, a2, a3, a4⟩ := parseLine_rx p (d.gotLine s m d.rep l)
    have h0 := h.1.held.zero hlr
    have hhas := hl.has_iff (lit := b!"+CIPRXGET: 2,0,") (by decide)
    by_cases hx : d.rep = .ciprxget2
    · have hw := h.2.ask hx
      obtain ⟨b1, b2⟩ := parseLine_ask p (d.gotLine s m d.rep l) hx hw
      refine ⟨fun hb => ⟨b1, ?_, ?_⟩, fun _ => b1, fun hf hoff => ?_⟩
      · cases hh : b!"+CIPRXGET: 2,0,".isPrefixOf l with
        | false => rw [hh] at hhas; exact absurd ((a3 hx hhas).2.trans h0) hb
        | true =>
          rw [hh] at hhas
          exact (a4 hx hhas (by rw [hl.has_iff (by decide)]; exact not_prefix hh (by decide))).1
      · cases hh : b!"+CIPRXGET: 2,0,".isPrefixOf l with
        | false => rw [hh] at hhas; exact absurd ((a3 hx hhas).2.trans h0) hb
        | true =>
          rw [hh] at hhas
          exact parseLine_reset (p := p) (d := d.gotLine s m d.rep l) hr b2
            (a4 hx hhas (by rw [hl.has_iff (by decide)]; exact not_prefix hh (by decide))).1
      · obtain ⟨c1, c2⟩ := parseLine_on p (d.gotLine s m d.rep l) hlr hoff
        rw [hhas] at c2
        exact primed_header h.1 ((rxI_sections p).line d s m l ha h.1 hr hlr hl hk) (parseLine_trace _ _) hx (headerSim_some c2) hf
    · obtain ⟨x, y⟩ := a2 hx
      refine ⟨fun hb => absurd (y.trans h0) hb, fun hb => absurd hb x, fun _ hoff => ?_⟩
      exact absurd (parseLine_on p (d.gotLine s m d.rep l) hlr hoff).1 hx
  drop d h hr hd hs := ⟨(rxI_sections p).drop d h.1 hr hd hs, h.2.drop⟩
  csq d h hr hw hp ht hq hl := ⟨(rxI_sections p).csq d h.1 hr hw hp ht hq hl,
    .zero (by simpa using h.1.held.zero hl) (by simp) (by simpa using hl)⟩
  ident d h hr hw hp ht hq := by
    have hl : d.lineRead = true := by
      revert hq
      unfold SimDev.sendIDRequest
      (repeat' split) <;> simp_all
    exact ⟨(rxI_sections p).ident d h.1 hr hw hp ht hq, .zero (by simpa using h.1.held.zero hl) (by simp) (by simpa using hl)⟩
  identNone d h hq := ⟨(rxI_sections p).identNone d h.1 hq,
    h.2.note [] (by simpa using (SimDev.sendIDRequest_false hq).1) (by simp) (by simp) (by simp) (by simp) (by simp)⟩
  act d h hr hw hp ht := by
    refine ⟨(rxI_sections p).act d h.1 hr hw hp ht, ?_⟩
    by_cases hb : d.bytesToRead = 0
    · refine ⟨fun x => absurd (act_zero hb) x, fun hx => ?_, fun hf hoff => ?_⟩
      · by_cases hs : d.snd = .sendCiprxget2
        · exact act_unwaited hs hw
        · exact absurd hx (act_rep hs hp)
      · cases hl : d.lineRead with
        | true => rw [act_on hl] at hoff; simp at hoff
        | false =>
          obtain ⟨new, hn⟩ : ∃ new, (act d).trace = d.trace ++ new := Since.grows (eff_act (x := NoHeader) (st := false) d fun h => by simp at h)
          exact absurd hb (h.2.full (filled_append (by rw [← hn]; exact hf)) hl)
    · rcases (h.1.held hb).2 with hs | hs
      · have e : act d = actReceiving d := by simp only [act, hs]
        rw [e]
        unfold actReceiving
        rw [if_pos (by omega)]
        dsimp only
        by_cases hq : d.receive.2 = true
        · rw [if_pos hq]
          exact .zero (receive_true hq).2.2.1 (by simp) (receive_true hq).2.1
        · rw [if_neg hq, receive_false (by simpa using hq)]
          exact h.2.note [] (by simp) rfl rfl rfl rfl rfl
      · have e : act d = d := by simp only [act, hs]
        rw [e]; exact h.2

theorem pr_calls (p : Platform) : Calls (Pr p) where
  io d s m k ha h := ⟨rx_calls.io d s m k ha h.1, primed_calls.io d s m k ha h.2⟩
  isOpen d b h := ⟨rx_calls.isOpen d b h.1, primed_calls.isOpen d b h.2⟩
  conn d h a b := ⟨rx_calls.conn d h.1 a b, primed_calls.conn d h.2 a b⟩
  disc0 d h a := ⟨rx_calls.disc0 d h.1 a, primed_calls.disc0 d h.2 a⟩
  disc d h a := ⟨rx_calls.disc d h.1 a, primed_calls.disc d h.2 a⟩
  write0 d h a := ⟨rx_calls.write0 d h.1 a, primed_calls.write0 d h.2 a⟩
  write d b h a := ⟨rx_calls.write d b h.1 a, primed_calls.write d b h.2 a⟩
  read d n h := ⟨rx_calls.read d n h.1, primed_calls.read d n h.2⟩
  rssi d h := ⟨rx_calls.rssi d h.1, primed_calls.rssi d h.2⟩
  userTx d s b a h := ⟨rx_calls.userTx d s b a h.1, primed_calls.userTx d s b a h.2⟩
  userRx d s b a h := ⟨rx_calls.userRx d s b a h.1, primed_calls.userRx d s b a h.2⟩
  host d a q t h := ⟨rx_calls.host d a q t h.1, primed_calls.host d a q t h.2⟩

theorem pr_own (p : Platform) : Own (Pr p) where
  reset d h := ⟨(rxI_own p).reset d h.1, .zero rfl (by simp [SimDev.resetStates]) rfl⟩
  ext d e h := ⟨(rxI_own p).ext d e h.1, h.2.note [] (by simp) rfl rfl rfl rfl rfl⟩
  lock d h a b := ⟨(rxI_own p).lock d h.1 a b, h.2.note [] (by simp) rfl rfl rfl rfl rfl⟩
  unlock d h := ⟨(rxI_own p).unlock d h.1, h.2.note [] (by simp) rfl rfl rfl rfl rfl⟩

theorem act_fine {d : D} (h : Fine .serialError d) : Fine .serialError (act d) := by
  have hn := h.snd
  refine h.set ?_ ?_ ?_
  all_goals
    unfold act
    split
    all_goals first
      | contradiction
      | (simp; done)
      | exact handleConnect_ne (by simp_all) (by decide)
      | (unfold actCgsockcont; dsimp only; (repeat' split) <;> simp; done)
      | (unfold actCipopen; dsimp only; (repeat' split) <;> simp; done)
      | (unfold actConnected; dsimp only; (repeat' split) <;> first | exact handleDisconnect_ne (by simp_all) (by decide) | (simp_all; done))
      | (unfold actCiprxget2; dsimp only; (repeat' split) <;> first | exact handleDisconnect_ne (by simp_all) (by decide) | (simp_all; done))
      | (unfold actReceiving; dsimp only; (repeat' split) <;> simp_all; done)
      | ((try dsimp only); (repeat' split) <;> first | exact handleDisconnect_ne (by simp_all) (by decide) | exact handleConnect_ne (by simp_all) (by decide) | (simp_all; done))

theorem parseLine_fine (p : Platform) {d : D} (h : Fine .serialError d) : Fine .serialError (parseLine p d).1 := by
  have hw : Fine .serialError (parseWait d).1 := by
    unfold parseWait
    (repeat' split) <;> exact h.same rfl rfl rfl
  have hc : ∀ e : D, Fine .serialError e → Fine .serialError (checkState e) := by
    intro e he
    unfold checkState
    split
    · exact he.same (by simp) (by simp) (by simp)
    · exact he
  have hp : ∀ e : D, Fine .serialError e → Fine .serialError (parseReply p e).1 := by
    intro e he
    have hn := he.snd
    unfold parseReply
    split <;> (try dsimp only) <;> (repeat' split) <;> exact he.set (by simp) (by simp) (by simp [hn])
  unfold parseLine
  dsimp only
  split
  · exact hw
  · split
    · exact hp _ hw
    · exact hc _ (hp _ hw)

theorem proceed_fine {d : D} (h : Fine .serialError d) : Fine .serialError (proceed d) := by
  unfold proceed
  split
  · exact h
  · split
    · exact h.same rfl rfl rfl
    · have h' : Fine .serialError d.askSpace := h.same rfl rfl rfl
      unfold sendNext
      split
      · exact h'.same rfl rfl rfl
      · dsimp only
        split
        · exact h'.same (by simp) (by simp) (by simp)
        · exact act_fine (h'.same (by simp) (by simp) (by simp))

theorem run_fine (p : Platform) {d : D} (h : Fine .serialError d) (ok : Bool) : Fine .serialError (run p d ok) := by
  unfold run
  rw [if_neg (by simp [h.isOpen]), if_neg (by simp [h.free])]
  split
  · refine h.set (by unfold handleReset; simp) (by unfold handleReset; simp [h.free]) ?_
    show (if Snd.connecting.idx ≤ d.snd.idx ∧ d.snd.idx ≤ Snd.receiving.idx then Snd.connecting else Snd.notConnected) ≠ _
    split <;> simp
  · have hf : Fine .serialError (SimDev.fillLineBuffer d).1 := h.same (by simp) (by simp) (by simp)
    unfold work
    dsimp only
    split
    · split
      · exact parseLine_fine p hf
      · exact proceed_fine (parseLine_fine p hf)
    · refine proceed_fine ?_
      unfold flushIfDisconnecting
      split
      · exact hf.same (by simp) (by simp) (by simp)
      · exact hf

/-- One call of `run()`. -/
theorem proceed_backlog (p : Platform) {k : Nat} {d : D} (hr : Pr p d) (hq : RxQuiet d.ser) (hv : Ser.RxOk d.ser) (hl : LineOk d)
    (hf : Fine .serialError d) (ht : 20 ≤ d.ser.txFree) (hd : Filled requestSim (headerSim p) d.trace) (hp : Pends k d) :
    Backlog k 0 (proceed d) := by
  cases hx : d.lineRead with
  | true =>
    refine hp.on ((eff_proceed (x := NoHeader) (st := false) d fun h => by simp at h).eased hq hv hl) hx ?_
    unfold proceed
    split
    · exact hx
    · split
      · exact hx
      · unfold sendNext
        split
        · exact hx
        · dsimp only
          split
          · simpa using hx
          · exact act_on (by simpa using hx)
  | false =>
    have hb := hr.2.full hd hx
    obtain ⟨h1, h2, _⟩ := hr.2.idle hb
    have hs := (hr.1.held hb).2.resolve_right hf.snd
    have hsp : 20 ≤ d.serSpace := Nat.le_trans ht (by rw [← Dev.txFree_askSpace]; exact Ser.txFree_sync d.ser)
    unfold proceed
    rw [if_neg (by simp [h1, h2]), if_neg (by omega), sendNext_off (d := askSpace d) hx]
    have e : act (askSpace d) = actReceiving (askSpace d) := by
      have : (askSpace d).snd = .receiving := hs
      simp only [act, this]
    rw [e]
    unfold actReceiving
    rw [if_pos (by show 0 < d.bytesToRead; omega)]
    have hp' : Pends k d.askSpace := hp.same (by show d.ser.sync.held = _; unfold Ser.held; rw [hq.sync]) rfl rfl rfl
    have hq' : RxQuiet d.askSpace.ser := hq.later (Ser.later_spaceAvailable d.ser)
    have hv' : Ser.RxOk d.askSpace.ser := (Eff.askSpace (x := NoHeader) (strict := false) d).rxOk hv
    dsimp only
    split
    · rename_i hz
      exact hp'.take hq' hv' hx rfl (by simp) (fun _ => (receive_true hz).2.1) (fun h => by rw [h] at hz; simp at hz)
    · rename_i hz
      refine hp'.take hq' hv' hx rfl (by simp) (fun h => absurd h hz) (fun h => ?_)
      rw [receive_false h]
      exact ⟨hx, rfl⟩

theorem handleReset_held {d : D} (hq : RxQuiet d.ser) : (handleReset d).ser.held = 0 := by
  have h0 : d.flushSer.ser.held = 0 := rfl
  obtain ⟨h1, h2⟩ := held_cmdN (d := d.flushSer) (quiet_flushSer hq) b!"AT+CRESET"
  obtain ⟨h3, _⟩ := held_arg h2 lineEnd
  have e : (handleReset d).ser = ((d.flushSer.cmdN b!"AT+CRESET").arg lineEnd).ser := rfl
  rw [e, h3, h1, h0]

theorem proceed_grows' (d : D) : ∃ new, (proceed d).trace = d.trace ++ new :=
  Since.grows (eff_proceed (x := NoHeader) (st := false) d fun h => by simp at h)

/-- What holds all the time. -/
structure Tended (p : Platform) (base : List Ev) (size : Nat) (d : D) : Prop where
  inv : Inv d
  pr : Pr p d
  quiet : RxQuiet d.ser
  fine : Fine .serialError d
  cells : d.ser.rx.ring.size = size
  small : size < 2 ^ 64
  max : 0 < d.ext.maxRx
  roomy : Honours requestSim (headerSim p) d.trace → Roomy requestSim (headerSim p) (size - 8) d.trace
  grown : ∃ new, d.trace = base ++ new

theorem run_backlog (p : Platform) {base : List Ev} {size k c : Nat} {d : D} (h : Tended p base size d) (hc : c ≤ k)
    (ht : 20 ≤ d.ser.txFree) (hT : Kept requestSim (headerSim p) k base (run p d true).trace) (hw : Backlog k c d) :
    Backlog k 0 (run p d true) := by
  have e0 : run p d true = if d.resetPending then handleReset d else work p d := by
    unfold run
    rw [if_neg (by simp [h.fine.isOpen]), if_neg (by simp [h.fine.free])]
  rw [e0] at hT ⊢
  split
  · exact .inl (by rw [handleReset_held h.quiet]; exact Nat.le_refl _)
  · rename_i hrp
    rw [if_neg hrp] at hT
    have hrp : d.resetPending = false := by simpa using hrp
    have hq := h.quiet
    have hv := h.inv.1.rx
    have hl := h.inv.1.line
    cases hlr : d.lineRead with
    | false =>
      have ew : work p d = proceed (flushIfDisconnecting d) := by
        unfold work
        have e : d.fillLineBuffer = (d, false) := fillLine_off d _ hlr
        rw [e]; rfl
      rw [ew] at hT ⊢
      obtain ⟨new, hn⟩ := proceed_grows' (flushIfDisconnecting d)
      rw [hn] at hT
      have hT1 := kept_append hT
      obtain ⟨new1, hn1⟩ : ∃ new, (flushIfDisconnecting d).trace = d.trace ++ new :=
        Since.grows (eff_flushIfDisconnecting (x := NoHeader) (st := false) d fun h => by simp at h)
      have hd : Filled requestSim (headerSim p) d.trace := filled_append (by rw [← hn1]; exact hT1.2.1)
      have hb := h.pr.2.full hd hlr
      have hp := hw.off hc hlr hb (h.inv.2 hb).2.1
      have key : Pr p (flushIfDisconnecting d) ∧ RxQuiet (flushIfDisconnecting d).ser ∧ Fine .serialError (flushIfDisconnecting d) ∧
          20 ≤ (flushIfDisconnecting d).ser.txFree ∧ Pends k (flushIfDisconnecting d) := by
        unfold flushIfDisconnecting
        split
        · rename_i hx
          exact ⟨(pr_sections p).drop d h.pr hrp hx.1 hx.2, hq.later (Eff.flushReadBuffer (x := NoHeader) (strict := false) d (by simp)).later,
            h.fine.same (by simp) (by simp) (by simp), Nat.le_trans ht (flushReadBuffer_txFree d), hp.drop hq hv⟩
        · exact ⟨h.pr, hq, h.fine, ht, hp⟩
      obtain ⟨k1, k2, k3, k4, k5⟩ := key
      have he := eff_flushIfDisconnecting (x := NoHeader) (st := false) d fun h => by simp at h
      exact proceed_backlog p k1 k2 (he.rxOk hv) (he.lineOk hl) k3 k4 hT1.2.1 k5
    | true =>
      have ht0 : d.ser.txFree ≤ d.fillLineBuffer.1.ser.txFree := fillLine_txFree d _
      rcases d.fillLine_cases (SimDev.lineStop d.rep) (stopOk_sim (x := NoHeader) d.rep).full hl with
        ⟨s, m, j, e⟩ | ⟨_, s, m, r, l, e, h1, h2, m', c', h3, _⟩
      · have e' : SimDev.fillLineBuffer d = (d.setIo s m j, false) := e
        have ew : work p d = proceed (flushIfDisconnecting (d.setIo s m j)) := by
          unfold work; rw [e']; rfl
        rw [ew] at hT ⊢
        have hh : s.held = 0 := by
          rcases fillLine_eased hq hv hl (SimDev.lineStop d.rep) (stopOk_sim (x := NoHeader) d.rep).full hlr with ⟨_, g, _⟩ | ⟨l, g, _⟩
          · rw [e] at g; exact g
          · rw [e] at g; simp at g
        have he := (eff_flushIfDisconnecting (x := NoHeader) (st := false) (d.setIo s m j) fun h => by simp at h).trans
          (eff_proceed (x := NoHeader) (st := false) (flushIfDisconnecting (d.setIo s m j)) fun h => by simp at h)
        have hf := SimDev.eff_fillLineBuffer (x := NoHeader) (st := false) d
        rw [e'] at hf
        have := (he.eased (hq.later (later_setIo e)) (hf.rxOk hv) (hf.lineOk hl)).held
        have e3 : (d.setIo s m j).ser.held = s.held := rfl
        exact .inl (by omega)
      · have hrr : r = d.rep := by
          unfold SimDev.lineStop at h3
          split at h3 <;> simp at h3
          exact h3.symm
        subst hrr
        have e' : SimDev.fillLineBuffer d = (d.gotLine s m d.rep l, true) := e
        have ew : work p d = if (parseLine p (d.gotLine s m d.rep l)).2 then (parseLine p (d.gotLine s m d.rep l)).1
            else proceed (parseLine p (d.gotLine s m d.rep l)).1 := by
          unfold work; rw [e']; rfl
        rw [e'] at ht0
        have h4 := (pr_sections p).line d s m l (later_gotLine e) h.pr hrp hlr h1 h2
        have hTl : Kept requestSim (headerSim p) k base (d.trace ++ [.line l]) := by
          have e1 : (parseLine p (d.gotLine s m d.rep l)).1.trace = d.trace ++ [.line l] := parseLine_trace _ _
          rw [ew] at hT
          split at hT
          · rw [e1] at hT; exact hT
          · obtain ⟨new, hn⟩ := proceed_grows' (parseLine p (d.gotLine s m d.rep l)).1
            rw [hn, e1] at hT
            exact kept_append hT
        have hlong : k ≤ l.length := by
          obtain ⟨new, hn⟩ := h.grown
          exact hTl.2.2 (new ++ [.line l]) (by rw [hn]; simp) l (by simp)
        have hb := backlog_fill hw hc hq hv hl (SimDev.lineStop d.rep) (stopOk_sim (x := NoHeader) d.rep).full hlr (by
          intro l' hl'
          rw [e] at hl'
          have e2 : (d.gotLine s m d.rep l).trace = d.trace ++ [.line l] := rfl
          rw [e2] at hl'
          simp only [List.append_cancel_left_eq, List.cons.injEq, Ev.line.injEq, and_true] at hl'
          rw [← hl']; exact hlong)
        rw [e] at hb
        rcases hb with ⟨g, _⟩ | ⟨_, g1, g2⟩
        · simp at g
        · have g2 : (d.gotLine s m d.rep l).ser.held ≤ k := g2
          have hf := SimDev.eff_fillLineBuffer (x := NoHeader) (st := false) d
          rw [e'] at hf
          have hq1 : RxQuiet (d.gotLine s m d.rep l).ser := hq.later (later_gotLine e)
          have hx := eff_parseLine (x := NoHeader) (st := false) p (d.gotLine s m d.rep l) g1
          have hser := parseLine_ser p (d.gotLine s m d.rep l)
          have hfl := (parseLine_lbFill p (d.gotLine s m d.rep l)).trans g1
          have hT4 : Filled requestSim (headerSim p) (parseLine p (d.gotLine s m d.rep l)).1.trace := by
            rw [parseLine_trace]; exact hTl.2.1
          have hon : (parseLine p (d.gotLine s m d.rep l)).2 = true → (parseLine p (d.gotLine s m d.rep l)).1.lineRead = true := by
            intro hz
            cases hy : (parseLine p (d.gotLine s m d.rep l)).1.lineRead with
            | true => rfl
            | false =>
              obtain ⟨c1, _⟩ := parseLine_on p (d.gotLine s m d.rep l) hlr hy
              rw [(parseLine_ask p (d.gotLine s m d.rep l) c1 (h.pr.2.ask c1)).2] at hz
              simp at hz
          rw [ew]
          split
          · rename_i hz
            refine .inr (.inl ⟨hon hz, ?_⟩)
            unfold Dev.load
            rw [hfl, hser]; omega
          · exact proceed_backlog p h4 (by rw [hser]; exact hq1) (hx.rxOk (hf.rxOk hv)) (hx.lineOk (hf.lineOk hl))
              (parseLine_fine p (h.fine.same rfl rfl rfl)) (by rw [hser]; exact Nat.le_trans ht ht0) hT4
              (.of_line hfl (by rw [hser]; exact g2) (h4.2.full hT4))

theorem connect_use (d : D) : (SimDev.connect d).1.ser = d.ser ∧ (SimDev.connect d).1.lbFill = d.lbFill ∧
    (SimDev.connect d).1.lineRead = d.lineRead ∧ (SimDev.connect d).1.bytesToRead = d.bytesToRead := by
  unfold SimDev.connect Dev.ipConnect
  (repeat' split) <;> exact ⟨rfl, rfl, rfl, rfl⟩

theorem step_use (p : Platform) {d : D} (op : Op) (hu : isUse op = true) (hk : d.serialLocked = false) :
    (step p d op).ser.held = 0 ∨ ((step p d op).ser.held = d.ser.held ∧ (step p d op).lbFill = d.lbFill ∧
      (step p d op).lineRead = d.lineRead ∧ (step p d op).bytesToRead = d.bytesToRead) := by
  cases op
  case connect =>
    obtain ⟨a1, a2, a3, a4⟩ := connect_use d
    obtain ⟨b1, b2, b3, b4⟩ := logConnect_use (SimDev.connect d)
    refine .inr ⟨?_, b2.trans a2, b3.trans a3, b4.trans a4⟩
    show (Dev.logConnect (SimDev.connect d)).ser.held = _
    rw [b1, a1]
  case resetStates => exact .inl rfl
  case run => simp [isUse] at hu
  case serialLock => simp [isUse] at hu
  case irq => simp [isUse] at hu
  case closePort => simp [isUse] at hu
  case setApn => exact .inr ⟨rfl, rfl, rfl, rfl⟩
  case serialUnlock => exact .inr ⟨rfl, rfl, rfl, rfl⟩
  case requestID => exact .inr ⟨rfl, rfl, rfl, rfl⟩
  all_goals
    obtain ⟨a1, a2, a3, a4⟩ := common_use d _ hu hk
    exact .inr ⟨by show Ser.held (Dev.ser (Dev.common d _)) = _; rw [a1], a2, a3, a4⟩

theorem step_fine (p : Platform) {d : D} (op : Op) (h1 : op ≠ .closePort) (h2 : op ≠ .serialLock) (h : Fine .serialError d) :
    Fine .serialError (step p d op) := by
  cases op
  case run ok => exact run_fine p h ok
  case closePort => exact absurd rfl h1
  case serialLock => exact absurd rfl h2
  case connect =>
    simp only [step]
    unfold Dev.logConnect SimDev.connect Dev.ipConnect
    (repeat' split) <;> exact h.same rfl rfl rfl
  case resetStates => exact ⟨h.isOpen, rfl, by simp [step, SimDev.resetStates]⟩
  case disconnect =>
    simp only [step, Dev.common]
    unfold Dev.disconnect
    split <;> exact h.same rfl rfl rfl
  case write bs =>
    simp only [step, Dev.common]
    unfold Dev.write
    dsimp only
    (repeat' split) <;> exact h.same rfl rfl rfl
  case serialWrite s => simp only [step, Dev.common]; unfold Dev.serialWrite; rw [h.free]; exact h
  case serialRead s => simp only [step, Dev.common]; unfold Dev.serialRead; rw [h.free]; exact h
  case serialUnlock => exact ⟨h.isOpen, rfl, h.snd⟩
  all_goals exact h.same rfl rfl rfl

theorem step_grows (p : Platform) {d : D} (op : Op) : ∃ new, (step p d op).trace = d.trace ++ new := by
  cases op
  case run ok => exact Since.grows (eff_run (x := NoHeader) (st := false) p d ok fun h => by simp at h)
  all_goals
    refine api_grows (step_api p d _ (by simp))

theorem step_tended (p : Platform) {base : List Ev} {size : Nat} {d : D} (op : Op) (h1 : op ≠ .closePort) (h2 : op ≠ .serialLock)
    (h : Tended p base size d) : Tended p base size (step p d op) where
  inv := step_inv p op h.inv
  pr := step_stages (pr_sections p) (pr_calls p) (pr_own p) h.inv.1.line h.pr op
  quiet := h.quiet.later (later_step p d op)
  fine := step_fine p op h1 h2 h.fine
  cells := (later_step p d op).rxSize.trans h.cells
  small := h.small
  max := by rw [step_maxRx]; exact h.max
  roomy := roomy_step p d op h.quiet h.max (by unfold Ser.readBufferSize; rw [h.cells]; exact h.small)
    (by unfold Ser.readBufferSize; rw [h.cells]) h.roomy
  grown := by
    obtain ⟨n1, e1⟩ := h.grown
    obtain ⟨n2, e2⟩ := step_grows p (d := d) op
    exact ⟨n1 ++ n2, by rw [e2, e1]; simp⟩

theorem serving (p : Platform) (base : List Ev) (size k : Nat) :
    Serving (step p) (fun _ => True) (Tended p base size) (Kept requestSim (headerSim p) k base) k 8 size where
  inv d op _ h1 h2 _ h := step_tended p op h1 h2 h
  hist d op h ht := by
    obtain ⟨n, e⟩ := step_grows p (d := d) op
    rw [e] at ht
    exact kept_append ht
  irq _ _ := rfl
  use d op hu h := step_use p op hu h.fine.free
  run d c h hc ht hT hw := run_backlog p h hc ht hT hw
  rx _ h := h.inv.1.rx
  cells _ h := h.cells
  room d h ht := by
    rw [← h.pr.1.due]
    exact (h.roomy ht.1).due

end Sim7x00

end Verif
