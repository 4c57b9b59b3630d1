import Verif.Lemmas.CableDev
import Verif.Lemmas.NetCC

/-! The CC1352P7 driver at a cable. -/

namespace Verif

open Dev Spec

namespace CC1352P7

variable {p : Platform} {c : Conf} {t0 : List Ev} {T : List (List Byte)} {q : St Snd Rep}
  {d g : D} {n : Nat} {l y : List Byte} {s : Spot} {cs : ConnState} {cap : Nat}

/-- Nothing is done while an answer is awaited. -/
theorem idle_more (h : g.wait ≠ none ∨ g.rep ≠ .okReply) (y : List Byte) : proceed p (g.more y) = (proceed p g).more y := by
  have e : proceed p g = g := by unfold proceed; rw [if_pos h]
  rw [e]
  unfold proceed
  rw [if_pos (show (g.more y).wait ≠ none ∨ (g.more y).rep ≠ .okReply from h)]

theorem chat_more (h : Chat p c t0 T q g) (y : List Byte) (ha : q.snd = .sendCiprecvdata → c.rcv = 0) (hr : q.snd = .receiving → c.rd = 0) :
    proceed p (g.more y) = (proceed p g).more y :=
  more_proceed p h.calm.ser.sched y (fun x => h.rcv.trans (ha (h.snd.symm.trans x))) fun x => .inl (h.rd.trans (hr (h.snd.symm.trans x)))

/-- Except for the amount that is asked for, nothing depends on what has arrived. -/
theorem pro_more (h : In0 p s c T g) (hs : ∀ b, s ≠ .taking b) (hm : s ≠ .query ∧ s ≠ .count ∧ s ≠ .counted) (ha : s = .ask → c.rcv = 0) (y : List Byte) :
    proceed p (g.more y) = (proceed p g).more y := by
  obtain ⟨hi, cs, hv, hc, hf⟩ := h
  cases s with
  | ready => exact chat_more hc y (by simp [spotSt]) (by simp [spotSt])
  | query => exact absurd rfl hm.1
  | count => exact absurd rfl hm.2.1
  | counted => exact absurd rfl hm.2.2
  | ask => exact chat_more hc y (fun _ => ha rfl) (by simp [spotSt])
  | taking b => exact absurd rfl (hs b)
  | asked k => exact idle_more (.inr (by rw [hc.rep]; simp [spotSt])) y
  | _ => exact idle_more (.inl (by rw [hc.wait]; simp [spotSt])) y

/-- Less is asked for when something has arrived. -/
theorem asks_more (hF : Fix n cap c) (h : In0 p .ask c T g) (h1 : 0 < c.rcv) (hy : y.length ≤ c.rx) :
    ∃ e1, proceed p (g.more y) = e1.more y ∧
      (In0 p .ask c T e1 ∨ ∃ k, 0 < k ∧ k ≤ mach.want c ∧ In0 p (.asked k) c (T ++ [mach.t.ask k]) e1) := by
  have h0 := h
  obtain ⟨f3, f4, f5, f6, f7, f8, f11⟩ := hF
  have hmx : 0 < maxRx ∧ maxRx < 10000 := by decide
  obtain ⟨hi, cs, hv, h, hf⟩ := h
  have hf := hf rfl
  obtain ⟨w1, w2, w3, w4⟩ := Talk.waits h hy
  have ha : (g.more y).askSpace = g.more y := by rw [more_askSpace w3, h.calm.askSpace]
  have ep : proceed p (g.more y) = actCiprecvdata (g.more y) := by
    unfold proceed
    rw [if_neg (by show ¬ (g.wait ≠ none ∨ g.rep ≠ .okReply); rw [h.wait, h.rep]; simp [spotSt]), more_serSpace w3, h.calm.serSpace,
      if_neg (by omega), ha]
    unfold sendNext
    rw [if_neg (fun x => by
      have x : g.rssi = int16Max ∧ _ := x
      rw [h.ask] at x; simp [spotSt] at x), if_neg (fun x => h.ext.mac ⟨x.1, x.2.1⟩)]
    unfold act
    rw [show (g.more y).snd = .sendCiprecvdata from h.snd]
  rw [ep]
  have hd : ¬ (g.more y).disconnectPending = true := by show ¬ g.disconnectPending = true; rw [h.disc]; simp [spotSt]
  have h1' : (g.more y).bytesToReceive > 0 := by show g.bytesToReceive > 0; rw [h.rcv]; exact h1
  have hsp : (g.more y).rbuf.spaceAvailable = c.rcap - c.rq.length := h.space
  have hrs : (g.more y).ser.readBufferSize = c.rx := (w4.arrive y (by simpa using hy)).2.rxs
  by_cases h2 : 30 < c.rx - y.length ∧ c.rq.length < c.rcap
  · have ew : ∃ k, 0 < k ∧ k ≤ mach.want c ∧ k < 10000 ∧
        SimDev.requestAmount (c.rx - y.length) 30 g.bytesToReceive (c.rcap - c.rq.length) maxRx = k := by
      refine ⟨_, ?_, ?_, ?_, rfl⟩ <;> rw [requestAmount_eq (by omega) (by omega), h.rcv]
      · omega
      · show _ ≤ min (min (min (c.rx - 30) c.rcv) (c.rcap - c.rq.length)) maxRx
        omega
      · omega
    obtain ⟨k, k1, k2, k3, ew⟩ := ew
    have hk3 : k < 4294967296 := by omega
    have e1 : sendCiprcvdata (g.more y) = ((((g.cmd b!"AT+CIPRECVDATA=").arg (decimals k)).arg lineEnd).more y, true) := by
      unfold sendCiprcvdata
      rw [w2]
      dsimp only
      rw [w1, hsp, hrs, w2, if_pos ⟨by omega, by omega⟩]
      have ew' : SimDev.requestAmount (c.rx - y.length) 30 (g.more y).bytesToReceive (c.rcap - c.rq.length) maxRx = k := ew
      rw [ew', dec_decimals hk3, more_cmd w3, more_arg (sched_cmd w3 _), more_arg (sched_arg (sched_cmd w3 _) _)]
    have e : actCiprecvdata (g.more y) = ({ (((g.cmd b!"AT+CIPRECVDATA=").arg (decimals k)).arg lineEnd) with
        snd := .waitReceive, rep := .parseStateCiprecvdata } : D).more y := by
      unfold actCiprecvdata
      rw [if_neg hd, if_pos h1', e1]; rfl
    rw [e]
    refine ⟨_, rfl, .inr ⟨k, k1, k2, ?_⟩⟩
    have l1 : (decimals k).length ≤ 4 := decimals_length (by omega) (by omega)
    have hx : (b!"AT+CIPRECVDATA=" ++ decimals k ++ b!"\r\n").length ≤ g.ser.txFree := by
      rw [hf]; simp; omega
    refine ⟨hi, cs, hv, ?_, fun x => by cases x⟩
    show Chat _ _ _ _ (at_ .waitReceive .parseStateCiprecvdata none cs) _
    have h : Chat p c [] T (at_ .sendCiprecvdata .okReply none cs) g := h
    said h hx (((Wrote.cmd h.calm.ser b!"AT+CIPRECVDATA=" (by decide)).arg _ (decimals_zero _)).arg lineEnd (by decide))
  · have e1 : sendCiprcvdata (g.more y) = (g.more y, false) := by
      unfold sendCiprcvdata
      rw [w2]
      dsimp only
      rw [w1, hsp, hrs, if_neg (fun x => h2 ⟨by omega, by omega⟩)]
    have e : actCiprecvdata (g.more y) = g.more y := by
      unfold actCiprecvdata
      rw [if_neg hd, if_pos h1', e1]; rfl
    exact ⟨g, e, .inl h0⟩

theorem run_take_more {b : List Byte} (h : Take c (ChatExt p) t0 T (at_ .receiving .okReply none cs) b d) (y : List Byte) :
    run p (d.more y) true = proceed p (d.more y) := by
  obtain ⟨s, h1⟩ := h.talk
  have a1 : (d.more y).isOpen = true := h1.calm.isOpen
  have a3 : (d.more y).resetPending = false := h1.calm.reset
  have a4 : (d.more y).disconnectPending = false := h1.disc
  have a5 : (d.more y).lineRead = false := h.lineRead
  have e : run p (d.more y) true = work p (d.more y) := by
    unfold run
    rw [a1, a3]; rfl
  have ef : (d.more y).fillLine (lineStop (d.more y).rep) = (d.more y, false) := by
    unfold Dev.fillLine
    rw [if_neg (by rw [a5]; simp)]
  rw [e]
  unfold work fillLineBuffer
  rw [ef]
  show proceed p (flushIfDisconnecting (d.more y)) = _
  unfold flushIfDisconnecting
  rw [if_neg (fun x => by rw [a4] at x; cases x.1)]

/-- A line was read, and the driver goes on with `g`. -/
theorem heard_pro {c1 : Conf} {m : Modem} {a : Act} {l : List Byte} {s1 : Spot} (hF1 : Fix n cap c1)
    (hs : ∀ b, s1 ≠ .taking b) (hm : s1 ≠ .query ∧ s1 ≠ .count ∧ s1 ≠ .counted) (hg : In0 p s1 c1 T g) (hB : Behind p l c.rx (hearing d n l) g) (hl : l.length + y.length ≤ c.rx) (hx : c1.rx = c.rx)
    (e : run p (hearing d n l) true = proceed p g) (ha : s1 = .ask → Spec.AsksNext mach c m s a c1) (hh : ∀ n, s = .asked n → a ≠ .speak) :
    Heard mach ⟨tongueCC, n, cap, meaningCC⟩ (step p) (In p n cap) s c T d m a l y := by
  by_cases h0 : s1 = .ask ∧ 0 < c1.rcv
  · obtain ⟨rfl, h0⟩ := h0
    obtain ⟨e1, k1, k2⟩ := asks_more (y := y) hF1 hg h0 (by omega)
    refine .ask (ha rfl) ((hB y hl).trans k1) ?_
    rcases k2 with k2 | ⟨k, k3, k4, k2⟩
    · exact .inl ⟨hF1, k2⟩
    · exact .inr ⟨k, k3, k4, hF1, k2⟩
  · refine .plain hh ?_
    rw [exec_hear0]
    show run p ((hearing d n l).more y) true = (run p (hearing d n l) true).more y
    rw [hB y hl, e]
    exact pro_more hg hs hm (fun x => Nat.eq_zero_of_not_pos fun z => h0 ⟨x, z⟩) y

/-- The awaited line `OK`. -/
theorem hear_ok (hF : Fix n cap c) {q : St Snd Rep} {v : List Byte} (hv0 : v ≠ []) (hv' : c.part ++ v = b!"OK\r\n")
    (hi : d.ipConnected = true) (hc : Chat p c [] T q d) (hw : q.wait = some b!"OK")
    (hr : q.rep = .okReply) (hq : q.ask = false) :
    ∃ g, g.ipConnected = true ∧ Chat p (c.mid []) [] T { q with wait := none } g ∧ g.ser.txFree = c.tx ∧
      run p (hearing d n v) true = proceed p g ∧ proceed p g = act g ∧ Behind p v c.rx (hearing d n v) g :=
  hear_good (p := p) hF (v := v) (t := b!"OK\r") (z := nl) hv' hv0 hi hc hw hr hq (by decide) (by decide) (by decide) (by decide) (.inl rfl)
    (by decide) (by unfold Spec.Clear; decide) (by unfold Spec.Clear; decide)

theorem eager (p : Platform) (n cap : Nat) :
    Eager mach ⟨tongueCC, n, cap, meaningCC⟩ (step p) (In p n cap) where
  rx := by
    intro s c T d h
    obtain ⟨hF, h⟩ := h
    cases s with
    | taking b =>
      obtain ⟨hi, cs, hl, hc⟩ := h
      exact hc.ser.still
    | _ =>
      obtain ⟨hi, cs, hl, hc, hf⟩ := h
      exact hc.calm.ser.still
  irq := step_irq
  write := more_common_write
  read d y k := rfl
  drain := by
    intro s c T d h
    have hn := h.1.2.2.2.2.1
    by_cases hs : ∀ b, s ≠ .taking b
    · obtain ⟨hi, cs, hl, hc, hf⟩ := In.get0 hs h
      obtain ⟨h1, h2⟩ := hc.drained hn
      exact In.zero h.1 hs ⟨hi, cs, hl, h1, fun _ => h2⟩
    · cases s with
      | taking b =>
        obtain ⟨hF, hi, cs, hl, hc⟩ := h
        exact ⟨hF, hi, cs, hl, hc.drained hn (Dev.fits hc.ser.still)⟩
      | _ => exact absurd (by simp) hs
  block := by
    intro c T d b l y ph h hm hb hy
    obtain ⟨hF, hi, cs, hl, hc⟩ := h
    have hh := hc.hearing hF.2.2.2.2.1 l (by omega)
    obtain ⟨q, h1⟩ := hh.talk
    have e0 := exec_hear0 (p := p) (n := n) d l
    rw [e0]
    show run p ((hearing d n l).more y) true = _
    rw [run_take_more hh, run_take hh]
    have h2 : (hearing d n l).snd = .receiving := h1.snd
    have h3 : (hearing d n l).bytesToRead = c.rd := h1.rd
    exact more_proceed p hh.ser.sched y (fun x => by rw [h2] at x; cases x)
      fun _ => .inr ⟨_, _, hh.ser.still, by rw [List.length_append]; omega, by rw [h3, List.length_append]; omega⟩
  line := by
    intro s c T d m a l m' y h hf ha hsay hr hy hl
    have hs := (hf.says ha hsay).2
    have hF := h.1
    cases a with
    | noise x =>
      simp only [Modem.say] at hsay
      split at hsay
      · cases hsay
      · simp only [Option.some.injEq, Prod.mk.injEq] at hsay
        obtain ⟨rfl, -⟩ := hsay
        obtain ⟨h1, h2⟩ := aside_of ha.1 ha.2
        obtain ⟨g, g1, g2, g3, e, hB⟩ := hear_aside (p := p) hF (In.get0 hs h) hs hr ha.1 h1
        rw [checkState_clear g2 h2] at e hB
        exact heard_pro (c1 := c.mid []) hF hs (meet_no hf.meet) g1 hB hl rfl e (fun x => by subst x; exact .noise) (fun _ _ x => by cases x)
    | tell =>
      simp only [Modem.say] at hsay
      split at hsay
      · simp only [Option.some.injEq, Prod.mk.injEq] at hsay
        have hb := hf.cap
        generalize hk : m.inbox.length = k at hsay hb
        have hv'' : tongueCC.announce k = c.part ++ l := hsay.1
        have l1 : (decimals k).length ≤ 10 := decimals_length (by have := hF.2.2.2.2.2.2; dsimp only at hb; omega) (by omega)
        obtain ⟨i1, i2, i3⟩ := Sim800.isLine_nums (pre := b!"+IPD,") (n := k) (rest := b!"\r") (by decide) (by decide)
          (by decide) (by decide) (by decide) (by decide) (by simp; omega)
        have el : tongueCC.announce k = b!"+IPD," ++ decimals k ++ b!"\r" ++ [nl] := by simp [tongueCC, nl]
        have hpre : b!"+IPD" <+: b!"+IPD," ++ decimals k ++ b!"\r" ++ [nl] := ⟨b!"," ++ decimals k ++ b!"\r" ++ [nl], by simp⟩
        have hl' : IsLine (tongueCC.announce k) := by
          rw [el]
          refine ⟨by simp only [List.length_append, List.length_singleton] at i3 ⊢; omega, _, rfl, i1, i2, ?_⟩
          simp [decimals_zero]
        have ha : Aside (tongueCC.announce k) := by
          rw [el]
          exact ⟨not_prefix_of hpre (by decide) (by decide), clear_of hpre (by decide), not_prefix_of hpre (by decide) (by decide),
            not_prefix_of hpre (by decide) (by decide)⟩
        obtain ⟨g, g1, g2, g3, e, hB⟩ := hear_aside (p := p) h.1 (In.get0 hs h) hs hr (hv'' ▸ hl') (hv'' ▸ ha)
        have hst : strtol p.long64 (g.line.drop 5) = k :=
          g2.strtol p.long64 b!"+IPD," b!"\r\n" k (by rw [← hv'', el]; simp [nl]) (by have := hF.2.2.2.2.2.2; dsimp only at hb; omega) (by decide)
        have ec : checkState p g = { g with bytesToReceive := k, dataPending := true } := by
          unfold checkState
          rw [if_pos g3, if_pos ((show strncmpEq g.line.cells b!"+IPD," 4 = g.has b!"+IPD" from rfl).trans
            (g2.has_true (by decide) (by rw [← hv'', el]; exact hpre))), hst, toU64_small (by have := hF.2.2.2.2.2.2; dsimp only at hb; omega)]
        subst hk
        have hm := hf.meet
        rw [ec] at e hB
        obtain ⟨hi, cs, hv, hc, hf⟩ := g1
        exact heard_pro (c1 := mach.told (c.mid []) m.inbox.length) hF hs (meet_no hm) (g := { g with bytesToReceive := m.inbox.length, dataPending := true }) ⟨hi, cs, hv, (hc.rcvOnly m.inbox.length).dataSet true, hf⟩ hB hl rfl e
          (fun x => by subst x; exact .tell) (fun _ _ x => by cases x)
      · cases hsay
    | speak =>
      have hsay : m.speak mach.t = some (c.part ++ l, m') := hsay
      have hf0 := hf.mid []
      obtain ⟨hi, cs, hv, hc, hfr⟩ := In.get0 hs h
      cases s with
      | prompt =>
        obtain ⟨e, -, -⟩ := hf0.prompt hsay
        obtain ⟨g, g1, g3, g4, e1, e2, hB⟩ := hear_good (p := p) hF (v := l) (t := []) (z := gt) e hr hi hc rfl rfl rfl
          (by decide) (by decide) (by decide) (by decide) (.inr rfl) (by decide) (by unfold Spec.Clear; decide) (by unfold Spec.Clear; decide)
        refine .plain (by simp) ?_
        rw [exec_hear0]
        show run p ((hearing d n l).more y) true = (run p (hearing d n l) true).more y
        rw [hB y hl, e1]
        exact chat_more g3 y (by simp [spotSt]) (by simp [spotSt])
      | confirm =>
        obtain ⟨e, -, -⟩ := hf0.confirm (good (c := c.mid []) hF) hsay
        obtain ⟨g, g1, g3, g4, e1, e2, hB⟩ := hear_ok (p := p) hF hr e hi hc rfl rfl rfl
        exact heard_pro (s1 := .ready) (c1 := c.mid []) hF (by simp) (by simp) ⟨g1, cs, hv, g3, fun _ => g4⟩ hB hl rfl e1 (by simp) (by simp)
      | count => exact absurd rfl (meet_no hf.meet).2.1
      | counted => exact absurd rfl (meet_no hf.meet).2.2
      | asked k =>
        have hd : c.rd = 0 := hf.rd rfl (by
          have := hf.meet; revert this; cases m.phase <;> simp [Meet, Phase.rest])
        have hb : 0 < k ∧ k ≤ c.rcv := by
          have := hf.meet
          revert this
          cases m.phase <;> simp only [Meet] <;> first | exact False.elim | skip
          rintro ⟨rfl, h1, h2, -⟩
          exact ⟨h1, h2⟩
        obtain ⟨e, h0, -, -⟩ := hf0.header (good (c := c.mid []) hF) hsay
        obtain ⟨h1, hB⟩ := hear_header (p := p) hF hb.1 hb.2 hd h0 hf.cap
          (by have := hF.2.2.2.2.2.2; have := hf.cap; have := hf.rcv; dsimp only at *; omega) hr e.symm (In.get0 hs h)
        refine .header rfl rfl ?_
        rw [exec_hear0]
        obtain ⟨i1, cs', i3, i4⟩ := h1
        show run p ((hearing d n l).more y) true = run p ((hearing (run p (hearing d n l) true) n []).more y) true
        rw [i4.still, run_take_more i4, hB y hl]
      | taken =>
        have hd : c.rd = 0 := hf.rd rfl (by
          have := hf.meet; revert this; cases m.phase <;> simp [Meet, Phase.rest])
        obtain ⟨e, -, -⟩ := hf0.taken hsay
        obtain ⟨g, g1, g3, g4, e1, e2, hB⟩ := hear_ok (p := p) hF hr e hi hc rfl rfl rfl
        refine .plain (by simp) ?_
        rw [exec_hear0]
        show run p ((hearing d n l).more y) true = (run p (hearing d n l) true).more y
        rw [hB y hl, e1]
        exact chat_more g3 y (by simp [spotSt]) (fun _ => hd)
      | taking b => exact absurd rfl (hs b)
      | _ =>
        exfalso
        have := hf.meet; revert this hsay; unfold Modem.speak; cases m.phase <;> simp [Meet]
    | _ => cases hsay

end CC1352P7
end Verif
