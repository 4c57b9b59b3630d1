import Verif.Lemmas.CableDev
import Verif.Lemmas.Net800

/-! The SIM800 driver at a cable. -/

namespace Verif

open Dev Spec

namespace Sim800

variable {p : Platform} {c : Conf} {apn addr : Option (List Byte)} {t0 : List Ev} {T : List (List Byte)} {q : St Snd Rep}
  {d g : D} {n : Nat} {l y : List Byte} {r : Peer} {s : Spot} {cs : ConnState} {most cap : Nat}

/-- Nothing is done while an answer is awaited. -/
theorem idle_more (h : g.wait ≠ none ∨ g.rep ≠ .okReply) (y : List Byte) : proceed (g.more y) = (proceed g).more y := by
  have e : proceed g = g := by unfold proceed; rw [if_pos h]
  rw [e]
  unfold proceed
  rw [if_pos (show (g.more y).wait ≠ none ∨ (g.more y).rep ≠ .okReply from h)]

theorem chat_more (h : Chat c apn addr t0 T q g) (y : List Byte) (ha : q.snd = .sendCiprxget2 → c.rcv = 0) (hr : q.snd = .receiving → c.rd = 0) :
    proceed (g.more y) = (proceed g).more y :=
  more_proceed h.calm.ser.sched y (fun x => h.rcv.trans (ha (h.snd.symm.trans x))) fun x => .inl (h.rd.trans (hr (h.snd.symm.trans x)))

/-- Except for the amount that is asked for, nothing depends on what has arrived. -/
theorem pro_more (h : In0 apn r most s c T g) (hs : ∀ b, s ≠ .taking b) (ha : s = .ask → c.rcv = 0) (y : List Byte) :
    proceed (g.more y) = (proceed g).more y := by
  obtain ⟨hi, hm, cs, hv, hc, hf⟩ := h
  cases s with
  | ready => exact chat_more hc y (by simp [spotSt]) (by simp [spotSt])
  | query => exact chat_more hc y (by simp [spotSt]) (by simp [spotSt])
  | ask => exact chat_more hc y (fun _ => ha rfl) (by simp [spotSt])
  | taking b => exact absurd rfl (hs b)
  | asked k => exact idle_more (.inr (by rw [hc.rep]; simp [spotSt])) y
  | _ => exact idle_more (.inl (by rw [hc.wait]; simp [spotSt])) y

/-- Less is asked for when something has arrived. -/
theorem asks_more (hF : Fix r n most cap c) (h : In0 apn r most .ask c T g) (h1 : 0 < c.rcv) (hy : y.length ≤ c.rx) :
    ∃ e1, proceed (g.more y) = e1.more y ∧
      (In0 apn r most .ask c T e1 ∨ ∃ k, 0 < k ∧ k ≤ (mach most).want c ∧ In0 apn r most (.asked k) c (T ++ [(mach most).t.ask k]) e1) := by
  have h0 := h
  obtain ⟨hk, f1, f2, f3, f4, f5, f6, f7, f8, f9, f10, f11⟩ := hF
  obtain ⟨hi, hm, cs, hv, h, hf⟩ := h
  have hf := hf rfl
  obtain ⟨w1, w2, w3, w4⟩ := Talk.waits h hy
  have ha : (g.more y).askSpace = g.more y := by rw [more_askSpace w3, h.calm.askSpace]
  have hid : g.ext.id.get 1 = 0 ∨ g.ext.id.get 0 ≠ 0 := h.ext.id
  have ep : proceed (g.more y) = actCiprxget2 (g.more y) := by
    unfold proceed
    rw [if_neg (by show ¬ (g.wait ≠ none ∨ g.rep ≠ .okReply); rw [h.wait, h.rep]; simp [spotSt]), more_serSpace w3, h.calm.serSpace,
      if_neg (by omega), ha]
    unfold sendNext
    rw [if_neg (fun x => by
      have x : g.rssi = int16Max ∧ _ := x
      rw [h.ask] at x; simp [spotSt] at x)]
    have e : SimDev.sendIDRequest (g.more y) iccidCommand = (g.more y, false) := by
      unfold SimDev.sendIDRequest
      rw [if_neg (fun x => hid.elim x.1 fun z => z x.2.1)]
    rw [e]
    show act (g.more y) = _
    unfold act
    rw [show (g.more y).snd = .sendCiprxget2 from h.snd]
  rw [ep]
  have hd : ¬ (g.more y).disconnectPending = true := by show ¬ g.disconnectPending = true; rw [h.disc]; simp [spotSt]
  have h1' : (g.more y).bytesToReceive > 0 := by show g.bytesToReceive > 0; rw [h.rcv]; exact h1
  have hsp : (g.more y).rbuf.spaceAvailable = c.rcap - c.rq.length := h.space
  have hrs : (g.more y).ser.readBufferSize = c.rx := (w4.arrive y (by simpa using hy)).2.rxs
  by_cases h2 : 8 < c.rx - y.length ∧ c.rq.length < c.rcap
  · have ew : ∃ k, 0 < k ∧ k ≤ (mach most).want c ∧ k < 4294967296 ∧
        SimDev.requestAmount (c.rx - y.length) 8 g.bytesToReceive (c.rcap - c.rq.length) g.ext.maxRx = k := by
      refine ⟨_, ?_, ?_, ?_, rfl⟩ <;> rw [requestAmount_eq (by omega) (by omega), hm, h.rcv]
      · omega
      · show _ ≤ min (min (min (c.rx - 8) c.rcv) (c.rcap - c.rq.length)) most
        omega
      · omega
    obtain ⟨k, k1, k2, k3, ew⟩ := ew
    have e1 : SimDev.sendCiprxget2 (g.more y) = ((((g.cmdN b!"AT+CIPRXGET=2,0,").arg (decimals k)).arg lineEnd).more y, true) := by
      unfold SimDev.sendCiprxget2
      rw [w2]
      dsimp only
      rw [w1, hsp, hrs, w2, if_pos ⟨by omega, by omega⟩]
      have ew' : SimDev.requestAmount (c.rx - y.length) 8 (g.more y).bytesToReceive (c.rcap - c.rq.length) (g.more y).ext.maxRx = k := ew
      rw [ew', dec_decimals k3, more_cmdN w3, more_arg (sched_cmdN w3 _), more_arg (sched_arg (sched_cmdN w3 _) _)]
    have e : actCiprxget2 (g.more y) = ({ (((g.cmdN b!"AT+CIPRXGET=2,0,").arg (decimals k)).arg lineEnd) with
        snd := .waitReceive, rep := .ciprxget2 } : D).more y := by
      unfold actCiprxget2
      rw [if_neg hd, if_pos h1', e1]; rfl
    rw [e]
    refine ⟨_, rfl, .inr ⟨k, k1, k2, ?_⟩⟩
    have l1 : (decimals k).length ≤ 10 := decimals_length (by omega) (by omega)
    have hx : (b!"AT+CIPRXGET=2,0," ++ decimals k ++ b!"\r\n").length ≤ g.ser.txFree := by
      rw [hf]; simp; omega
    refine ⟨hi, hm, cs, hv, ?_, fun x => by cases x⟩
    show Chat _ _ _ _ _ (at_ .waitReceive .ciprxget2 none cs) _
    have h : Chat c apn (some r.addr) [] T (at_ .sendCiprxget2 .okReply none cs) g := h
    said h hx (((Wrote.cmdN h.calm.ser b!"AT+CIPRXGET=2,0,").arg _ (decimals_zero _)).arg lineEnd (by decide))
  · have e1 : SimDev.sendCiprxget2 (g.more y) = (g.more y, false) := by
      unfold SimDev.sendCiprxget2
      rw [w2]
      dsimp only
      rw [w1, hsp, hrs, if_neg (fun x => h2 ⟨by omega, by omega⟩)]
    have e : actCiprxget2 (g.more y) = g.more y := by
      unfold actCiprxget2
      rw [if_neg hd, if_pos h1', e1]; rfl
    exact ⟨g, e, .inl h0⟩

theorem run_take_more {b : List Byte} (h : Take c (SimDev.ChatExt apn addr) t0 T (at_ .receiving .okReply none cs) b d) (y : List Byte) :
    run p (d.more y) true = proceed (d.more y) := by
  obtain ⟨s, h1⟩ := h.talk
  have a1 : (d.more y).isOpen = true := h1.calm.isOpen
  have a2 : (d.more y).serialLocked = false := h1.calm.lock
  have a3 : (d.more y).resetPending = false := h1.calm.reset
  have a4 : (d.more y).disconnectPending = false := h1.disc
  have a5 : (d.more y).lineRead = false := h.lineRead
  have e : run p (d.more y) true = work p (d.more y) := by
    unfold run
    rw [a1, a2, a3]; rfl
  have ef : (d.more y).fillLine (SimDev.lineStop (d.more y).rep) = (d.more y, false) := by
    unfold Dev.fillLine
    rw [if_neg (by rw [a5]; simp)]
  rw [e]
  unfold work SimDev.fillLineBuffer
  rw [ef]
  show proceed (flushIfDisconnecting (d.more y)) = _
  unfold flushIfDisconnecting
  rw [if_neg (fun x => by rw [a4] at x; cases x.1)]

/-- A line was read, and the driver goes on with `g`. -/
theorem heard_pro {c1 : Conf} {m : Modem} {a : Act} {l : List Byte} {s1 : Spot} (hF1 : Fix r n most cap c1)
    (hs : ∀ b, s1 ≠ .taking b) (hg : In0 apn r most s1 c1 T g) (hB : Behind p l c.rx (hearing d n l) g) (hl : l.length + y.length ≤ c.rx) (hx : c1.rx = c.rx)
    (e : run p (hearing d n l) true = proceed g) (ha : s1 = .ask → Spec.AsksNext (mach most) c m s a c1) (hh : ∀ n, s = .asked n → a ≠ .speak) :
    Heard (mach most) ⟨tongue800, n, cap, meaning800⟩ (step p) (In apn r n most cap) s c T d m a l y := by
  by_cases h0 : s1 = .ask ∧ 0 < c1.rcv
  · obtain ⟨rfl, h0⟩ := h0
    obtain ⟨e1, k1, k2⟩ := asks_more (y := y) hF1 hg h0 (by omega)
    refine .ask (ha rfl) ((hB y hl).trans k1) ?_
    rcases k2 with k2 | ⟨k, k3, k4, k2⟩
    · exact .inl ⟨hF1, k2⟩
    · exact .inr ⟨k, k3, k4, hF1, k2⟩
  · refine .plain hh ?_
    rw [exec_hear0]
    show run p ((hearing d n l).more y) true = (run p (hearing d n l) true).more y
    rw [hB y hl, e]
    exact pro_more hg hs (fun x => Nat.eq_zero_of_not_pos fun z => h0 ⟨x, z⟩) y

/-- The awaited line `OK`. -/
theorem hear_ok (hF : Fix r n most cap c) {q : St Snd Rep} {v : List Byte} (hv0 : v ≠ []) (hv' : c.part ++ v = b!"OK\r\n")
    (hi : d.ipConnected = true) (hm : d.ext.maxRx = most) (hc : Chat c apn (some r.addr) [] T q d) (hw : q.wait = some b!"OK")
    (hr : q.rep = .okReply) (hq : q.ask = false) :
    ∃ g, g.ipConnected = true ∧ g.ext.maxRx = most ∧ Chat (c.mid []) apn (some r.addr) [] T { q with wait := none } g ∧ g.ser.txFree = c.tx ∧
      run p (hearing d n v) true = proceed g ∧ proceed g = act g ∧ Behind p v c.rx (hearing d n v) g :=
  hear_good (p := p) hF (v := v) (t := b!"OK\r") (z := nl) hv' hv0 hi hm hc hw hr hq (by decide) (by decide) (by decide) (by decide) (.inl rfl)
    (by decide) (by unfold Spec.Clear; decide) (by unfold Spec.Clear; decide)

theorem eager (p : Platform) (apn : Option (List Byte)) (r : Peer) (n most cap : Nat) :
    Eager (mach most) ⟨tongue800, n, cap, meaning800⟩ (step p) (In apn r n most cap) where
  rx := by
    intro s c T d h
    obtain ⟨hF, h⟩ := h
    cases s with
    | taking b =>
      obtain ⟨hi, hm, cs, hl, hc⟩ := h
      exact hc.ser.still
    | _ =>
      obtain ⟨hi, hm, cs, hl, hc, hf⟩ := h
      exact hc.calm.ser.still
  irq := step_irq
  write := more_common_write
  read d y k := rfl
  drain := by
    intro s c T d h
    have hn := h.1.2.2.2.2.2.2.2.1
    by_cases hs : ∀ b, s ≠ .taking b
    · obtain ⟨hi, hm, cs, hl, hc, hf⟩ := In.get0 hs h
      obtain ⟨h1, h2⟩ := hc.drained hn
      exact In.zero h.1 hs ⟨hi, hm, cs, hl, h1, fun _ => h2⟩
    · cases s with
      | taking b =>
        obtain ⟨hF, hi, hm, cs, hl, hc⟩ := h
        exact ⟨hF, hi, hm, cs, hl, hc.drained hn (Dev.fits hc.ser.still)⟩
      | _ => exact absurd (by simp) hs
  block := by
    intro c T d b l y ph h hm hb hy
    obtain ⟨hF, hi, hx, cs, hl, hc⟩ := h
    have hh := hc.hearing hF.2.2.2.2.2.2.2.1 l (by omega)
    obtain ⟨q, h1⟩ := hh.talk
    have e0 := exec_hear0 (p := p) (n := n) d l
    rw [e0]
    show run p ((hearing d n l).more y) true = _
    rw [run_take_more hh, run_take hh]
    have h2 : (hearing d n l).snd = .receiving := h1.snd
    have h3 : (hearing d n l).bytesToRead = c.rd := h1.rd
    exact more_proceed hh.ser.sched y (fun x => by rw [h2] at x; cases x)
      fun _ => .inr ⟨_, _, hh.ser.still, by rw [List.length_append]; omega, by rw [h3, List.length_append]; omega⟩
  line := by
    intro s c T d m a l m' y h hf ha hsay hr hy hl
    have hs := (hf.says ha hsay).2
    have hF := h.1
    cases a with
    | noise x =>
      simp only [Modem.say] at hsay
      split at hsay
      · cases hsay
      · simp only [Option.some.injEq, Prod.mk.injEq] at hsay
        obtain ⟨rfl, -⟩ := hsay
        obtain ⟨h1, h2⟩ := aside_of ha.1 ha.2
        obtain ⟨g, g1, g2, g3, e, hB⟩ := hear_aside (p := p) hF (In.get0 hs h) hs hr ha.1 h1
        rw [checkState_clear g2 h2] at e hB
        exact heard_pro (c1 := c.mid []) hF hs g1 hB hl rfl e (fun x => by subst x; exact .noise) (fun _ _ x => by cases x)
    | tell =>
      simp only [Modem.say] at hsay
      split at hsay
      · simp only [Option.some.injEq, Prod.mk.injEq] at hsay
        have hv' : b!"+CIPRXGET: 1,0\r\n" = c.part ++ l := hsay.1
        have hl' : IsLine (c.part ++ l) := hv' ▸ ⟨by decide, b!"+CIPRXGET: 1,0\r", rfl, by decide, by decide, by decide⟩
        have ha : Aside (c.part ++ l) := hv' ▸ (by unfold Aside Spec.Clear; decide)
        obtain ⟨g, g1, g2, g3, e, hB⟩ := hear_aside (p := p) h.1 (In.get0 hs h) hs hr hl' ha
        have ec : checkState g = { g with dataPending := true } := by
          unfold checkState SimDev.checkConnectionState
          rw [if_pos g3, if_pos (g2.has_true (by decide) (hv' ▸ (by decide)))]
        rw [ec] at e hB
        obtain ⟨hi, hx, cs, hv, hc, hf⟩ := g1
        exact heard_pro (c1 := (mach most).told (c.mid []) m.inbox.length) hF hs (g := { g with dataPending := true }) ⟨hi, hx, cs, hv, hc.dataSet true, hf⟩ hB hl rfl e
          (fun x => by subst x; exact .tell) (fun _ _ x => by cases x)
      · cases hsay
    | speak =>
      have hsay : m.speak (mach most).t = some (c.part ++ l, m') := hsay
      have hf0 := hf.mid []
      obtain ⟨hi, hx, cs, hv, hc, hfr⟩ := In.get0 hs h
      cases s with
      | prompt =>
        obtain ⟨e, -, -⟩ := hf0.prompt hsay
        obtain ⟨g, g1, g2, g3, g4, e1, e2, hB⟩ := hear_good (p := p) hF (v := l) (t := []) (z := gt) e hr hi hx hc rfl rfl rfl
          (by decide) (by decide) (by decide) (by decide) (.inr rfl) (by decide) (by unfold Spec.Clear; decide) (by unfold Spec.Clear; decide)
        refine .plain (by simp) ?_
        rw [exec_hear0]
        show run p ((hearing d n l).more y) true = (run p (hearing d n l) true).more y
        rw [hB y hl, e1]
        exact chat_more g3 y (by simp [spotSt]) (by simp [spotSt])
      | confirm =>
        obtain ⟨e, -, -⟩ := hf0.confirm (good (c := c.mid []) hF) hsay
        obtain ⟨g, g1, g2, g3, g4, e1, e2, hB⟩ := hear_good (p := p) hF (v := l) (t := b!"0, SEND OK\r") (z := nl) e hr hi hx hc rfl rfl rfl
          (by decide) (by decide) (by decide) (by decide) (.inl rfl) (by decide) (by unfold Spec.Clear; decide) (by unfold Spec.Clear; decide)
        exact heard_pro (s1 := .ready) (c1 := c.mid []) hF (by simp) ⟨g1, g2, cs, hv, g3, fun _ => g4⟩ hB hl rfl e1 (by simp) (by simp)
      | count =>
        obtain ⟨e, h0, -, -⟩ := hf0.count hsay
        obtain ⟨-, e', hB, hw, e1⟩ := hear_count (p := p) hF hf.cap h0 hr e.symm (In.get0 hs h)
        refine .plain (by simp) ?_
        rw [exec_hear0]
        show run p ((hearing d n l).more y) true = (run p (hearing d n l) true).more y
        rw [hB y hl, e1, idle_more hw]
        unfold proceed
        rw [if_pos hw]
      | counted =>
        obtain ⟨e, -, -⟩ := hf0.counted (good (c := c.mid []) hF) hsay
        obtain ⟨g, g1, g2, g3, g4, e1, e2, hB⟩ := hear_ok (p := p) hF hr e hi hx hc rfl rfl rfl
        exact heard_pro (s1 := .ask) (c1 := c.mid []) hF (by simp) ⟨g1, g2, cs, hv, g3, fun _ => g4⟩ hB hl rfl e1 (fun _ => .done) (by simp)
      | asked k =>
        have hd : c.rd = 0 := hf.rd rfl (by
          have := hf.meet; revert this; cases m.phase <;> simp [Meet, Phase.rest])
        have hb : 0 < k ∧ k ≤ c.rcv := by
          have := hf.meet
          revert this
          cases m.phase <;> simp only [Meet] <;> first | exact False.elim | skip
          rintro ⟨rfl, h1, h2, -⟩
          exact ⟨h1, h2⟩
        obtain ⟨e, h0, -, -⟩ := hf0.header (good (c := c.mid []) hF) hsay
        obtain ⟨h1, hB⟩ := hear_header (p := p) hF hb.1 hb.2 hd h0 hf.cap
          (by have := hF.2.2.2.2.2.2.2.2.2.2.2; have := hf.cap; have := hf.rcv; dsimp only at *; omega) hr e.symm (In.get0 hs h)
        refine .header rfl rfl ?_
        rw [exec_hear0]
        obtain ⟨i1, i2, cs', i3, i4⟩ := h1
        show run p ((hearing d n l).more y) true = run p ((hearing (run p (hearing d n l) true) n []).more y) true
        rw [i4.still, run_take_more i4, hB y hl]
      | taken =>
        have hd : c.rd = 0 := hf.rd rfl (by
          have := hf.meet; revert this; cases m.phase <;> simp [Meet, Phase.rest])
        obtain ⟨e, -, -⟩ := hf0.taken hsay
        obtain ⟨g, g1, g2, g3, g4, e1, e2, hB⟩ := hear_ok (p := p) hF hr e hi hx hc rfl rfl rfl
        refine .plain (by simp) ?_
        rw [exec_hear0]
        show run p ((hearing d n l).more y) true = (run p (hearing d n l) true).more y
        rw [hB y hl, e1]
        exact chat_more g3 y (by simp [spotSt]) (fun _ => hd)
      | taking b => exact absurd rfl (hs b)
      | _ =>
        exfalso
        have := hf.meet; revert this hsay; unfold Modem.speak; cases m.phase <;> simp [Meet]
    | _ => cases hsay

end Sim800
end Verif
