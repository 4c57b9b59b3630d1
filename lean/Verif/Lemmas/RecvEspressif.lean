import Verif.Lemmas.Receiving
import Verif.Lemmas.PayEspressif

/-! Received data, Espressif driver with TCP. -/

namespace Verif

open Dev Spec

namespace Espressif

theorem sendCiprcvdata_take {d : D} (h : (sendCiprcvdata d).2 = true) :
    ∃ g1 k g3, (sendCiprcvdata d).1.trace = d.trace ++ [.cmd requestWifi g1,
      .arg (dec (askAmount d)) ((dec (askAmount d)).take k), .arg lineEnd g3] := by
  unfold sendCiprcvdata at h ⊢
  dsimp only at h ⊢
  split
  · simp only [Dev.arg_trace, Dev.cmd_trace, List.append_assoc]
    exact ⟨_, _, _, rfl⟩
  · rename_i hc; rw [if_neg hc] at h; simp at h

theorem askAmount_le (d : D) :
    askAmount d ≤ d.rbuf.spaceAvailable ∧ askAmount d ≤ d.bytesToReceive ∧ askAmount d ≤ maxRx :=
  requestAmount_le _ _ _ _ _

/-- The header ends with the separator before the payload. -/
theorem LineEnd.header {p : Platform} {d : D} {l : List Byte} {r : Rep} (h : LineEnd d l r)
    (ht : d.typ = .tcp) (hl : l.length ≤ lineMax) (hd : d.rep ≠ .parseStateCiprecvdata) :
    (r = d.rep ∧ (d.rep = .waitCiprecvdata → headerEsp p l = none)) ∨
    (d.rep = .waitCiprecvdata ∧ r = .parseStateCiprecvdata ∧ 13 ≤ l.length ∧
      b!"+CIPRECVDATA".isPrefixOf l = true ∧ headerEsp p l = some (numberAt p l 13)) := by
  obtain ⟨m, c, h1, h2, h3⟩ := h
  have hc : m.cells = l ++ m.cells.drop l.length := by
    conv => lhs; rw [← List.take_append_drop l.length m.cells]
    rw [h2]
  unfold lineStop at h1
  split at h1
  · rename_i he
    injection h1 with h1
    refine Or.inl ⟨h1.symm, fun _ => ?_⟩
    unfold headerEsp
    rw [if_neg]
    rintro ⟨x1, x2, x3⟩
    rw [h3] at x3
    rcases he with rfl | rfl | ⟨x, _⟩ | x
    · rcases x3 with ⟨x, _⟩ | ⟨x, _⟩ <;> exact absurd x (by decide)
    · rcases x3 with ⟨x, _⟩ | ⟨x, _⟩ <;> exact absurd x (by decide)
    · exact x ht
    · rw [x] at x2; exact absurd x2 (by decide)
  · rename_i he
    split at h1
    · rename_i hk
      obtain ⟨k1, k2, k3⟩ := hk
      injection h1 with h1
      have k4 : (c = 58 ∧ b!"+CIPRECVDATA,".isPrefixOf l = true) ∨
          (c = 44 ∧ b!"+CIPRECVDATA:".isPrefixOf l = true) := by
        have hx : ∀ lit : List Byte, lit.length = 13 → (0 : Byte) ∉ lit → hasPrefix m lit = true →
            lit.isPrefixOf l = true := by
          intro lit hlen h0 hm
          rw [hasPrefix_iff _ _ h0, hc] at hm
          rw [List.isPrefixOf_iff_prefix]
          exact List.prefix_of_prefix_length_le hm (List.prefix_append _ _) (by omega)
        rcases k3 with ⟨x, y⟩ | ⟨x, y⟩
        · exact Or.inl ⟨x, hx _ rfl (by decide) y⟩
        · exact Or.inr ⟨x, hx _ rfl (by decide) y⟩
      refine Or.inr ⟨k1, h1.symm, by omega, ?_, ?_⟩
      · rw [List.isPrefixOf_iff_prefix]
        rcases k4 with ⟨_, y⟩ | ⟨_, y⟩
        · exact List.IsPrefix.trans ⟨[44], rfl⟩ (List.isPrefixOf_iff_prefix.mp y)
        · exact List.IsPrefix.trans ⟨[58], rfl⟩ (List.isPrefixOf_iff_prefix.mp y)
      · unfold headerEsp
        rw [if_pos]
        refine ⟨k2, ?_, ?_⟩
        · have : l.length ≠ lineMax := fun x => he (Or.inr (Or.inr (Or.inr x)))
          have e : lineMax = 60 := rfl
          omega
        · rw [h3]
          rcases k4 with ⟨x, y⟩ | ⟨x, y⟩
          · exact Or.inl ⟨by rw [x], y⟩
          · exact Or.inr ⟨by rw [x], y⟩
    · simp at h1

abbrev Rx0 (p : Platform) : D → Prop :=
  RxInv requestWifi (headerEsp p) .waitCiprecvdata .receiving .serialError

/-- The invariant, for TCP. -/
structure RxI (p : Platform) (d : D) : Prop where
  rx : Rx0 p d
  tcp : d.typ = .tcp
  parse : d.rep ≠ .parseStateCiprecvdata

theorem held_act {d : D} (h : Held .receiving .serialError d) : Held .receiving .serialError (act d) := by
  by_cases hb : d.bytesToRead = 0
  · exact (busy_act (.of_zero hb)).held
  · rcases (h hb).2 with hs | hs
    · have e : act d = actReceiving d := by simp only [act, hs]
      rw [e]
      unfold actReceiving
      rw [if_pos (by omega)]
      dsimp only
      by_cases hq : d.receive.2 = true
      · split <;> exact fun x => absurd (receive_true hq).2.2.1 x
      · rw [if_neg fun x => hq x.1, receive_false (by simpa using hq)]
        exact h
    · have e : act d = d := by simp only [act, hs]
      rw [e]; exact h

theorem act_rep {d : D} (h : d.snd ≠ .sendCiprecvdata) (hr : d.rep = .okReply) :
    (act d).rep ≠ .waitCiprecvdata := by
  unfold act
  split
  all_goals first
    | contradiction
    | (simp [hr]; done)
    | (unfold actCipstart; dsimp only; (repeat' split) <;> simp [hr])
    | (unfold actCwjap; simp [hr])
    | (unfold actConnected; dsimp only; (repeat' split) <;> simp [hr])
    | (unfold actReceiving; dsimp only; (repeat' split) <;> simp [hr])
    | ((try dsimp only); (repeat' split) <;> simp [hr])

theorem act_rep2 {d : D} (hr : d.rep = .okReply) :
    (act d).rep ≠ .parseStateCiprecvdata := by
  unfold act
  split
  all_goals first
    | (simp [hr]; done)
    | (unfold actCipstart; dsimp only; (repeat' split) <;> simp [hr])
    | (unfold actCwjap; simp [hr])
    | (unfold actCiprecvdata; dsimp only; (repeat' split) <;> simp [hr])
    | (unfold actConnected; dsimp only; (repeat' split) <;> simp [hr])
    | (unfold actReceiving; dsimp only; (repeat' split) <;> simp [hr])
    | ((try dsimp only); (repeat' split) <;> simp [hr])

theorem act_wait {d : D} (hw : d.wait = none) : (act d).wait ≠ some b!"+CIPRECVDATA" := by
  unfold act
  split
  all_goals first
    | (simp [hw]; done)
    | (unfold actCwjap; simp; decide)
    | (simp; decide)
    | (unfold actCipstart; dsimp only; (repeat' split) <;> simp <;> decide)
    | (unfold actConnected; dsimp only; (repeat' split) <;>
        first | exact prepareSending_wait false hw (by decide) | simp [hw] |
          (simp; exact prepareSending_wait false hw (by decide)))
    | (unfold actReceiving; dsimp only; (repeat' split) <;> simp [hw] <;> decide)
    | (unfold actCiprecvdata; dsimp only; (repeat' split) <;> simp [hw] <;> decide)
    | ((try dsimp only); (repeat' split) <;> simp [hw] <;> decide)

theorem parseLine_rx (p : Platform) (d : D) (htyp : d.typ = .tcp) :
    (parseLine p d).1.rbuf = d.rbuf ∧ (parseLine p d).1.typ = d.typ ∧
    (d.rep ≠ .parseStateCiprecvdata → (parseLine p d).1.rep ≠ .parseStateCiprecvdata ∧
      ((parseLine p d).1.rep = .waitCiprecvdata ↔ d.rep = .waitCiprecvdata) ∧
      (parseLine p d).1.bytesToRead = d.bytesToRead) ∧
    (d.rep = .parseStateCiprecvdata → d.has b!"+CIPRECVDATA" = true → isError d = false →
      d.has b!"SEND FAIL" = false → d.has b!"WIFI DISCONNECT" = false →
      (parseLine p d).1.rep = .okReply ∧ (parseLine p d).1.lineRead = false ∧
      (parseLine p d).1.snd = .receiving ∧
      (parseLine p d).1.bytesToRead =
        addSize d.bytesToRead (toInt (strtol p.long64 (d.line.drop 13)))) := by
  have hs : (parseSendFail d).rbuf = d.rbuf ∧ (parseSendFail d).rep = d.rep ∧
      (parseSendFail d).bytesToRead = d.bytesToRead ∧ (parseSendFail d).line = d.line ∧
      (parseSendFail d).typ = d.typ := by
    unfold parseSendFail
    (repeat' split) <;> exact ⟨rfl, rfl, rfl, rfl, rfl⟩
  obtain ⟨s1, s2, s3, s4, s5⟩ := hs
  have hw : ∀ e : D, (parseWait e).rbuf = e.rbuf ∧ (parseWait e).rep = e.rep ∧
      (parseWait e).bytesToRead = e.bytesToRead ∧ (parseWait e).line = e.line ∧
      (parseWait e).typ = e.typ := by
    intro e
    unfold parseWait
    (repeat' split) <;> exact ⟨rfl, rfl, rfl, rfl, rfl⟩
  obtain ⟨w1, w2, w3, w4, w5⟩ := hw (parseSendFail d)
  rw [s1] at w1; rw [s2] at w2; rw [s3] at w3; rw [s4] at w4; rw [s5] at w5
  have hp : ∀ e : D, (parseReply p e).rbuf = e.rbuf ∧ (parseReply p e).typ = e.typ ∧
      (parseReply p e).line = e.line ∧
      (e.rep ≠ .parseStateCiprecvdata → (parseReply p e).rep ≠ .parseStateCiprecvdata ∧
        ((parseReply p e).rep = .waitCiprecvdata ↔ e.rep = .waitCiprecvdata) ∧
        (parseReply p e).bytesToRead = e.bytesToRead) ∧
      (e.rep = .parseStateCiprecvdata → e.has b!"+CIPRECVDATA" = true →
        (parseReply p e).rep = .okReply ∧ (parseReply p e).lineRead = false ∧
        (parseReply p e).snd = .receiving ∧
        (parseReply p e).bytesToRead =
          addSize e.bytesToRead (toInt (strtol p.long64 (e.line.drop 13)))) := by
    intro e
    refine ⟨?_, ?_, ?_, ?_, ?_⟩
    · unfold parseReply
      split <;> (try dsimp only) <;> (repeat' split) <;> simp
    · unfold parseReply
      split <;> (try dsimp only) <;> (repeat' split) <;> simp
    · unfold parseReply
      split <;> (try dsimp only) <;> (repeat' split) <;> simp
    · intro hr
      unfold parseReply
      split <;> (try dsimp only) <;> (repeat' split) <;> simp_all
    · intro hr hh
      simp only [parseReply, hr]
      unfold parseCiprecvdata
      simp [hh]
  have hc : ∀ e : D, e.typ = .tcp → (checkState p e).rbuf = e.rbuf ∧ (checkState p e).rep = e.rep ∧
      (checkState p e).bytesToRead = e.bytesToRead ∧ (checkState p e).lineRead = e.lineRead ∧
      (e.has b!"WIFI DISCONNECT" = false → (checkState p e).snd = e.snd) ∧
      (checkState p e).typ = e.typ := by
    intro e he
    unfold checkState
    dsimp only
    rw [if_pos he]
    (repeat' split) <;> simp_all
  obtain ⟨p1, p5, p6, p2, p4⟩ := hp (parseWait (parseSendFail d))
  rw [w4] at p6
  rw [w5] at p5
  obtain ⟨c1, c2, c3, c4, c5, c6⟩ := hc (parseReply p (parseWait (parseSendFail d))) (p5.trans htyp)
  have eh : (parseWait (parseSendFail d)).has b!"+CIPRECVDATA" = d.has b!"+CIPRECVDATA" := by
    unfold Dev.has; rw [w4]
  have eh2 : (parseReply p (parseWait (parseSendFail d))).has b!"WIFI DISCONNECT" =
      d.has b!"WIFI DISCONNECT" := by
    unfold Dev.has; rw [p6]
  rw [eh2] at c5
  rw [eh, w2, w3, w4] at p4
  rw [w2, w3] at p2
  rw [w1] at p1
  unfold parseLine
  by_cases q1 : isError d = true
  · rw [if_pos q1]
    refine ⟨rfl, rfl, fun x => ⟨x, Iff.rfl, rfl⟩, fun _ _ x => ?_⟩
    rw [x] at q1; simp at q1
  · rw [if_neg q1]
    dsimp only
    rw [c1, c2, c3, c4, c6]
    exact ⟨p1, p5, p2, fun x y _ _ z => ⟨(p4 x y).1, (p4 x y).2.1, (c5 z).trans (p4 x y).2.2.1,
      (p4 x y).2.2.2⟩⟩

theorem act_typ (d : D) : (act d).typ = d.typ := by
  have := (act_turn d)
  unfold act
  split <;> (try unfold actConnected) <;> (try unfold actReceiving) <;> (try unfold actCiprecvdata) <;>
    (try unfold actCipstart) <;> (try unfold actCwjap) <;> (try dsimp only) <;> (repeat' split) <;> simp

theorem rxI_sections (p : Platform) : Sections p (RxI p) where
  fail d h _ := ⟨h.rx.note [] (by simp) (by simp) rfl rfl Iff.rfl fun x => ⟨(h.rx.held x).1, Or.inr rfl⟩,
    h.tcp, h.parse⟩
  reset d h hr := by
    refine ⟨?_, by simp [handleReset, h.tcp], by simp [handleReset]⟩
    have h1 : Rx0 p { d.flushSer with bytesToRead := 0, rep := .okReply } :=
      rx_flush h.rx rfl rfl rfl (by simp)
    refine rx_other (v := b!"AT+RST") (rest := [.arg lineEnd _]) h1 (by decide)
      (by simp [handleReset]; exact ⟨rfl, rfl⟩) rfl
      (by simp [handleReset]) (by simp [handleReset]) (by simp [handleReset]) (fun x => absurd (by simp [handleReset]) x)
  line d s m l r _ h _ hlr ha hl hok hend := by
    obtain ⟨a1, a5, a2, a4⟩ := parseLine_rx p (d.gotLine s m r l) h.tcp
    have ht : (parseLine p (d.gotLine s m r l)).1.trace = d.trace ++ [.line l] := by
      rw [parseLine_trace]
    have h0 := h.rx.held.zero hlr
    have hlen : l.length ≤ lineMax := by
      have h1 := (List.getElem?_eq_some_iff.mp hl.zero).1
      have h2 := hok.len
      omega
    rcases hend.header (p := p) h.tcp hlen h.parse with ⟨rfl, hn⟩ | ⟨hr, rfl, h13, hpre, hh⟩
    · obtain ⟨x, y, z⟩ := a2 h.parse
      exact ⟨rx_line h.rx hlr ht a1 (z.trans h0) y hn, a5.trans h.tcp, x⟩
    · have hhas := hl.has_iff (lit := b!"+CIPRECVDATA") (by decide)
      rw [hpre] at hhas
      obtain ⟨x1, x2, x3, x4⟩ := a4 rfl hhas (by
          unfold isError
          rw [hl.has_iff (by decide), hl.has_iff (by decide),
            not_prefix hpre (by decide), not_prefix hpre (by decide)]
          rfl)
        (by rw [hl.has_iff (by decide), not_prefix hpre (by decide)])
        (by rw [hl.has_iff (by decide), not_prefix hpre (by decide)])
      refine ⟨rx_header h.rx hlr ht a1 hr hh ?_ (by rw [x1]; simp) fun _ => ⟨x2, Or.inl x3⟩,
        a5.trans h.tcp, by rw [x1]; simp⟩
      rw [x4, hl.number _ h13]
      show addSize d.bytesToRead _ = _
      rw [h0, addSize_zero]; rfl
  drop d h _ _ _ := ⟨rx_drop h.rx, h.tcp, h.parse⟩
  csq d h _ _ _ _ _ _ := ⟨
    rx_said h.rx ((said_sendCommand d b!"AT+CWJAP?").set rfl ⟨rfl, rfl, rfl, rfl, rfl, rfl⟩) (by decide)
      (by simp) rfl rfl, h.tcp, by simp⟩
  mac d h _ _ _ _ _ _ := ⟨
    rx_said h.rx ((said_sendCommand d b!"AT+CIPSTAMAC?").set rfl ⟨rfl, rfl, rfl, rfl, rfl, rfl⟩) (by decide)
      (by simp) rfl rfl, h.tcp, by simp⟩
  act d h hr hw hp _ := by
    refine ⟨?_, (act_typ d).trans h.tcp, act_rep2 hp⟩
    replace h := h.rx
    have hd : d.rep ≠ .waitCiprecvdata := by rw [hp]; simp
    by_cases hs : d.snd = .sendCiprecvdata
    · have e : act d = actCiprecvdata d := by simp only [act, hs]
      rw [e]
      unfold actCiprecvdata
      by_cases h1 : d.disconnectPending = true
      · rw [if_pos h1]
        exact h.note [] (by simp) (by simp) (by simp) (by simp) (by simp)
          (fun x => by have := (h.held (by simpa using x)).2; simp [hs] at this)
      · rw [if_neg h1]
        by_cases h2 : d.bytesToReceive > 0
        · rw [if_pos h2]
          dsimp only
          by_cases hq : (sendCiprcvdata d).2 = true
          · rw [if_pos hq]
            obtain ⟨g1, k, g3, ht⟩ := sendCiprcvdata_take hq
            exact rx_request h ht (askAmount_le d).1 (by simp) (by simp) rfl
              (fun x => by have := (h.held (by simpa using x)).2; simp [hs] at this)
          · rw [if_neg hq, sendCiprcvdata_false (by simpa using hq)]
            exact h.same rfl rfl rfl rfl rfl rfl
        · rw [if_neg h2]
          have hz : ∀ x : d.bytesToRead ≠ 0, False := fun x => by
            have := (h.held x).2; simp [hs] at this
          exact h.note [] (by simp) (by simp) rfl rfl Iff.rfl fun x => (hz x).elim
    · refine rx_turn h hd (act_rep hs hp) (by decide) ?_ (held_act h.held) (act_turn d)
      intro x
      rcases x with ⟨q, hq, hwq⟩ | ⟨_, x | x⟩
      · refine act_wait hw (hwq.trans ?_)
        have : q ∈ [b!"+CIPRECVDATA"] := hq
        rw [List.mem_singleton.mp this]
      · exact act_rep hs hp x
      · exact act_rep2 hp x

theorem rxI_own (p : Platform) : Own (RxI p) where
  reset d h := ⟨rx_reset h.rx rfl rfl rfl (by simp [resetStates]), h.tcp, by simp [resetStates]⟩
  ext _ _ h := ⟨h.rx.same rfl rfl rfl rfl rfl rfl, h.tcp, h.parse⟩
  ub _ h := ⟨h.rx.same rfl rfl rfl rfl rfl rfl, h.tcp, h.parse⟩

theorem rxI_host (p : Platform) (d : D) (a : Option (List Byte)) (q : Nat) (h : RxI p d) :
    RxI p { d with host := a, port := q, typ := .tcp } := ⟨rx_calls.host _ _ _ _ h.rx, rfl, h.parse⟩

theorem rxI_calls (p : Platform) : Calls0 (RxI p) where
  io _ _ _ _ hl h := ⟨rx_calls.io _ _ _ _ hl h.rx, h.tcp, h.parse⟩
  isOpen _ _ h := ⟨rx_calls.isOpen _ _ h.rx, h.tcp, h.parse⟩
  conn _ h h1 h2 := ⟨rx_calls.conn _ h.rx h1 h2, h.tcp, h.parse⟩
  disc0 _ h h1 := ⟨rx_calls.disc0 _ h.rx h1, h.tcp, h.parse⟩
  disc _ h h1 := ⟨rx_calls.disc _ h.rx h1, h.tcp, h.parse⟩
  write0 _ h h1 := ⟨rx_calls.write0 _ h.rx h1, h.tcp, h.parse⟩
  write _ _ h h1 := ⟨rx_calls.write _ _ h.rx h1, h.tcp, h.parse⟩
  read _ _ h := ⟨rx_calls.read _ _ h.rx, h.tcp, h.parse⟩
  rssi _ h := ⟨rx_calls.rssi _ h.rx, h.tcp, h.parse⟩
  userTx _ _ _ hl h := ⟨rx_calls.userTx _ _ _ hl h.rx, h.tcp, h.parse⟩
  userRx _ _ _ hl h := ⟨rx_calls.userRx _ _ _ hl h.rx, h.tcp, h.parse⟩

end Espressif
end Verif
