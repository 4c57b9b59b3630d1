import Verif.Lemmas.OneTx
import Verif.Lemmas.PaySim7x00
import Verif.Lemmas.PayEspressif
import Verif.Lemmas.Wire

/-! A block of payload is never longer than the transmit buffer of the serial device. -/

namespace Verif

open Dev Spec

variable {S R X : Type} {sd rc : S} {shape : Nat → List (List Byte) → Prop}
  {Q : Option (List Byte) → Dev S R X → Prop}

/-- Blocks of payload, also the next one, are not longer than the transmit buffer. -/
structure LeInv (sd : S) (d : Dev S R X) : Prop where
  next : d.snd = sd → d.resetPending = false → d.bytesToWrite ≤ d.ser.tx.ring.size
  pays : ∀ bs, .pay bs ∈ d.trace → bs.length ≤ d.ser.tx.ring.size

theorem LeInv.more {d e : Dev S R X} (h : LeInv sd d) (new : List Ev)
    (ht : e.trace = d.trace ++ new) (hn : new.all noStream = true) (_ : e.wbuf = d.wbuf)
    (hs : e.snd = sd → e.resetPending = false →
      d.snd = sd ∧ d.resetPending = false ∧ e.bytesToWrite = d.bytesToWrite)
    (hl : Ser.Later d.ser e.ser) : LeInv sd e := by
  refine ⟨fun a b => ?_, fun bs hb => ?_⟩
  · obtain ⟨x, y, z⟩ := hs a b
    rw [z, hl.txSize]; exact h.next x y
  · rw [hl.txSize]
    rw [ht, List.mem_append] at hb
    rcases hb with hb | hb
    · exact h.pays bs hb
    · have := List.all_eq_true.mp hn _ hb
      simp [noStream] at this

theorem LeInv.same {d e : Dev S R X} (h : LeInv sd d) (ht : e.trace = d.trace)
    (hw : e.wbuf = d.wbuf)
    (hs : e.snd = sd → e.resetPending = false →
      d.snd = sd ∧ d.resetPending = false ∧ e.bytesToWrite = d.bytesToWrite)
    (hl : Ser.Later d.ser e.ser) : LeInv sd e :=
  h.more [] (by simp [ht]) rfl hw hs hl

theorem LeInv.api {d e : Dev S R X} (h : LeInv sd d) (ev : Ev) (hp : noPay ev = true) (ht : e.trace = d.trace ++ [ev])
    (hs : e.snd = d.snd) (hr : e.resetPending = d.resetPending) (hb : e.bytesToWrite = d.bytesToWrite)
    (hl : e.ser = d.ser) : LeInv sd e := by
  refine ⟨fun a b => ?_, fun bs hm => ?_⟩
  · rw [hb, hl]; exact h.next (hs ▸ a) (hr ▸ b)
  · rw [hl]
    rw [ht, List.mem_append] at hm
    rcases hm with hm | hm
    · exact h.pays bs hm
    · simp only [List.mem_singleton] at hm
      subst hm
      simp [noPay] at hp

theorem leInv_calls : Calls (LeInv (S := S) (R := R) (X := X) sd) where
  io _ _ _ _ hl h := h.same rfl rfl (fun a b => ⟨a, b, rfl⟩) hl
  isOpen _ _ h := h.same rfl rfl (fun a b => ⟨a, b, rfl⟩) (.refl _)
  host _ _ _ _ h := h.same rfl rfl (fun a b => ⟨a, b, rfl⟩) (.refl _)
  conn _ h _ _ := h.more [_] rfl rfl rfl (fun a b => ⟨a, b, rfl⟩) (.refl _)
  disc0 _ h _ := h.more [_] rfl rfl rfl (fun a b => ⟨a, b, rfl⟩) (.refl _)
  disc _ h _ := h.more [_] rfl rfl rfl (fun a b => ⟨a, b, rfl⟩) (.refl _)
  write0 d h _ := h.api (.apiWrite _) rfl rfl rfl rfl rfl rfl
  write d bs h _ := h.api (.apiWrite _) rfl rfl rfl rfl rfl rfl
  read _ _ h := h.more [_] rfl rfl rfl (fun a b => ⟨a, b, rfl⟩) (.refl _)
  rssi _ h := h.same rfl rfl (fun a b => ⟨a, b, rfl⟩) (.refl _)
  userTx _ _ _ hl h := h.more [_] rfl rfl rfl (fun a b => ⟨a, b, rfl⟩) hl
  userRx _ _ _ hl h := h.more [_] rfl rfl rfl (fun a b => ⟨a, b, rfl⟩) hl

theorem leInv_said {d e : Dev S R X} {w : List Byte} (h : LeInv sd d) (hs : Said d w e)
    (hsnd : e.snd = d.snd) (hl : Ser.Later d.ser e.ser) : LeInv sd e := by
  obtain ⟨⟨g, rest, ht, ha⟩, hk⟩ := hs
  exact h.more _ ht (isArg_noStream' ha) hk.wbuf
    (fun a b => ⟨hsnd ▸ a, by rw [← hk.reset]; exact b, hk.toWrite⟩) hl

theorem leInv_reset {d e : Dev S R X} (h : LeInv sd d) (ht : e.trace = d.trace ++ [.apiReset])
    (_ : e.wbuf = d.wbuf.flush) (hb : e.bytesToWrite = 0) (hl : Ser.Later d.ser e.ser) :
    LeInv sd e := by
  refine ⟨fun _ _ => by rw [hb]; exact Nat.zero_le _, fun bs hm => ?_⟩
  rw [hl.txSize]
  rw [ht, List.mem_append] at hm
  rcases hm with hm | hm
  · exact h.pays bs hm
  · simp at hm

theorem serSpace_le (d : Dev S R X) : d.serSpace ≤ d.ser.tx.ring.size := by
  show d.ser.sync.tx.ring.size - _ ≤ _
  rw [(Ser.frame_sync d.ser).txSize]
  exact Nat.sub_le _ _

theorem sendAmount_size (d : Dev S R X) : d.sendAmount ≤ d.ser.tx.ring.size := by
  have h1 := serSpace_le d.askSpace
  have h2 := serSpace_le d.askSpace.askSpace
  have e1 : d.askSpace.ser.tx.ring.size = d.ser.tx.ring.size := (Ser.frame_sync d.ser).txSize
  have e2 : d.askSpace.askSpace.ser.tx.ring.size = d.askSpace.ser.tx.ring.size := (Ser.frame_sync _).txSize
  simp only [Dev.sendAmount, amount]
  split <;> omega

theorem length_pulls (r : Ring Byte) (n : Nat) : (pulls r n).2.length = n := by
  induction n generalizing r with
  | zero => rfl
  | succ n ih => simp [pulls, ih]

theorem leInv_turn {d e : Dev S R X} (h : LeInv sd d) (hr : d.resetPending = false)
    (ht : Turn sd rc shape Q d e) (hl : Ser.Later d.ser e.ser) : LeInv sd e := by
  cases ht with
  | quiet ht hs hk => exact h.same ht hk.wbuf (fun a => absurd a hs) hl
  | cmd w g rest ht hw ha hs hk hq =>
    exact h.more _ ht (isArg_noStream' ha) hk.wbuf (fun a => absurd a hs) hl
  | send rest ht ha hn hsh hwt hrp hs hk =>
    have hm : LeInv sd { e with bytesToWrite := 0 } :=
      ⟨fun _ _ => Nat.zero_le _, fun bs hb => by
        rw [hl.txSize]
        change _ ∈ e.trace at hb
        rw [ht, List.mem_append] at hb
        rcases hb with hb | hb
        · exact h.pays bs hb
        · have := List.all_eq_true.mp (isArg_noStream' (w := sendCmd) (g := sendCmd) ha) _ hb
          simp [noStream] at this⟩
    refine ⟨fun _ _ => ?_, hm.pays⟩
    rw [hn, hl.txSize]
    exact sendAmount_size d
  | pay h0 ht hb hs hk hp =>
    refine ⟨fun a => absurd a hs, fun bs hm => ?_⟩
    rw [hl.txSize]
    rw [ht, List.mem_append] at hm
    rcases hm with hm | hm
    · exact h.pays bs hm
    · simp only [List.mem_singleton, Ev.pay.injEq] at hm
      rw [hm, length_pulls]
      exact h.next h0 hr
  | data h0 hq h1 ht hb h2 hs hl' hk =>
    exact h.more _ (ht.trans (receive_true hq).1) rfl hk.wbuf (fun a => absurd a hs) hl

namespace Sim7x00

abbrev LeI : D → Prop := LeInv (S := Snd) .sendData

theorem leI_sections (p : Platform) : Sections p LeI where
  fail d h _ := h.same rfl rfl (by simp) (.refl _)
  reset d h hr _ := by
    refine h.more [.flush, .cmd _ _, .arg _ _] (by simp [handleReset]; exact ⟨⟨rfl, rfl⟩, rfl, rfl⟩) rfl (by simp [handleReset]) ?_
      (eff_handleReset (x := NoHeader) (st := false) d).later
    intro x
    exfalso
    revert x
    simp only [handleReset]
    by_cases c : Snd.connecting.idx ≤ d.snd.idx ∧ d.snd.idx ≤ Snd.receiving.idx <;> simp [c]
  line d s m l hl' h _ _ hl _ := by
    have hb : LeI (d.gotLine s m d.rep l) := h.more [_] rfl rfl rfl (fun a b => ⟨a, b, rfl⟩) hl'
    exact hb.same (parseLine_trace p _) (parseLine_wbuf p _) (fun h1 h2 => parseLine_tx p _ h1 h2)
      (eff_parseLine (x := NoHeader) (st := false) p _ rfl).later
  drop d h _ _ hs := h.more [_] rfl rfl (by simp) (by simp [hs])
      (Eff.flushReadBuffer (x := NoHeader) (strict := false) d (by simp [Clear])).later
  csq d h _ _ _ _ _ _ :=
    leInv_said h ((said_sendCommand d b!"AT+CSQ").set rfl ⟨rfl, rfl, rfl, rfl, rfl, rfl⟩) (by simp)
      ((Ser.later_writeStr _ _).trans (Ser.later_writeStr _ _))
  ident d h _ _ _ _ hq := by
    obtain ⟨w, hm, g1, g2, ht⟩ := SimDev.sendIDRequest_true hq
    refine h.more [.cmd w g1, .arg lineEnd g2] (by simp [ht]) rfl (by simp) ?_ ?_
    · simp; intro a b; exact ⟨a, b⟩
    · exact (SimDev.eff_sendIDRequest (Eff.refl (x := NoHeader) (st := false) d) _).later
  identNone d h hq := h.same (SimDev.sendIDRequest_false hq).1 (by simp)
    (by simp; intro a b; exact ⟨a, b⟩) (by rw [(SimDev.sendIDRequest_false hq).2]; exact .refl _)
  act d h hr _ _ _ := leInv_turn h hr (act_turn d)
    (eff_act (x := NoHeader) (st := false) d (by simp [Clear])).later

theorem leI_own : Own LeI where
  reset d h := leInv_reset h rfl rfl rfl (Ser.later_flush _)
  ext _ _ h := h.same rfl rfl (fun a b => ⟨a, b, rfl⟩) (.refl _)
  lock _ h _ _ := h.same rfl rfl (fun a b => ⟨a, b, rfl⟩) (.refl _)
  unlock _ h := h.same rfl rfl (fun a b => ⟨a, b, rfl⟩) (.refl _)

end Sim7x00

namespace Sim800

abbrev LeI : D → Prop := LeInv (S := Snd) .sendData

theorem leI_sections (p : Platform) : Sections p LeI where
  fail d h _ := h.same rfl rfl (by simp) (.refl _)
  reset d h hr _ := by
    exact h.more [.flush] (handleReset_facts d).1 rfl (handleReset_facts d).2.2
      (fun x => absurd x (handleReset_facts d).2.1)
      (eff_handleReset (x := NoHeader) (st := false) d).later
  line d s m l hl' h _ _ hl _ := by
    have hb : LeI (d.gotLine s m d.rep l) := h.more [_] rfl rfl rfl (fun a b => ⟨a, b, rfl⟩) hl'
    exact hb.same (parseLine_trace p _) (parseLine_wbuf p _) (fun h1 h2 => parseLine_tx p _ h1 h2)
      (eff_parseLine (x := NoHeader) (st := false) p _ rfl).later
  drop d h _ _ hs := h.more [_] rfl rfl (by simp) (by simp [hs])
      (Eff.flushReadBuffer (x := NoHeader) (strict := false) d (by simp [Clear])).later
  csq d h _ _ _ _ _ _ :=
    leInv_said h ((said_sendCommand d b!"AT+CSQ").set rfl ⟨rfl, rfl, rfl, rfl, rfl, rfl⟩) (by simp)
      ((Ser.later_writeStr _ _).trans (Ser.later_writeStr _ _))
  ident d h _ _ _ _ hq := by
    obtain ⟨w, hm, g1, g2, ht⟩ := SimDev.sendIDRequest_true hq
    refine h.more [.cmd w g1, .arg lineEnd g2] (by simp [ht]) rfl (by simp) ?_ ?_
    · simp; intro a b; exact ⟨a, b⟩
    · exact (SimDev.eff_sendIDRequest (Eff.refl (x := NoHeader) (st := false) d) _).later
  identNone d h hq := h.same (SimDev.sendIDRequest_false hq).1 (by simp)
    (by simp; intro a b; exact ⟨a, b⟩) (by rw [(SimDev.sendIDRequest_false hq).2]; exact .refl _)
  act d h hr _ _ _ := leInv_turn h hr (act_turn d)
    (eff_act (x := NoHeader) (st := false) d (by simp [Clear])).later

theorem leI_own : Own LeI where
  reset d h := leInv_reset h rfl rfl rfl (Ser.later_flush _)
  ext _ _ h := h.same rfl rfl (fun a b => ⟨a, b, rfl⟩) (.refl _)
  lock _ h _ _ := h.same rfl rfl (fun a b => ⟨a, b, rfl⟩) (.refl _)
  unlock _ h := h.same rfl rfl (fun a b => ⟨a, b, rfl⟩) (.refl _)

end Sim800

namespace Espressif

abbrev LeI : D → Prop := LeInv (S := Snd) .sendDataState

theorem leI_sections (p : Platform) : Sections p LeI where
  fail d h _ := h.same rfl rfl (by simp) (.refl _)
  reset d h hr := by
    refine h.more [.flush, .cmd _ _, .arg _ _] (by simp [handleReset]; exact ⟨⟨rfl, rfl⟩, rfl, rfl⟩) rfl (by simp [handleReset]) ?_
      (eff_handleReset (st := false) d).later
    intro x
    exfalso
    revert x
    simp only [handleReset]
    by_cases c : Snd.connecting.idx ≤ d.snd.idx ∧ d.snd.idx ≤ Snd.receiving.idx ∧ d.disconnectPending = false <;>
      simp [c]
  line d s m l r hl' h _ _ _ hl _ _ := by
    have hb : LeI (d.gotLine s m r l) := h.more [_] rfl rfl rfl (fun a b => ⟨a, b, rfl⟩) hl'
    exact hb.same (parseLine_trace p _) (parseLine_wbuf p _) (fun h1 h2 => parseLine_tx p _ h1 h2)
      (eff_parseLine (st := false) p _).later
  drop d h _ _ hs := h.more [_] rfl rfl (by simp) (by simp [hs])
      (Eff.flushReadBuffer (x := HeaderEnd) (strict := false) d (by simp [Clear])).later
  csq d h _ _ _ _ _ _ :=
    leInv_said h ((said_sendCommand d b!"AT+CWJAP?").set rfl ⟨rfl, rfl, rfl, rfl, rfl, rfl⟩) (by simp)
      ((Ser.later_writeStr _ _).trans (Ser.later_writeStr _ _))
  mac d h _ _ _ _ _ _ :=
    leInv_said h ((said_sendCommand d b!"AT+CIPSTAMAC?").set rfl ⟨rfl, rfl, rfl, rfl, rfl, rfl⟩) (by simp)
      ((Ser.later_writeStr _ _).trans (Ser.later_writeStr _ _))
  act d h hr _ _ _ := leInv_turn h hr (act_turn d)
    (eff_act (st := false) d (by simp [Clear])).later

theorem leI_own : Own LeI where
  reset d h := leInv_reset h rfl rfl rfl (Ser.later_flush _)
  ext _ _ h := h.same rfl rfl (fun a b => ⟨a, b, rfl⟩) (.refl _)
  ub _ h := h.same rfl rfl (fun a b => ⟨a, b, rfl⟩) (.refl _)

end Espressif

namespace CC1352P7

abbrev LeI : D → Prop := LeInv (S := Snd) .sendDataState

theorem leI_sections (p : Platform) : Sections p LeI where
  fail d h _ := h.same rfl rfl (by simp) (.refl _)
  reset d h hr := by
    exact h.more [.flush] (handleReset_facts d).1 rfl (handleReset_facts d).2.2
      (fun x => absurd x (handleReset_facts d).2.1)
      (eff_handleReset (x := NoHeader) (st := false) d).later
  line d s m l hl' h _ _ hl _ _ := by
    have hb : LeI (d.gotLine s m d.rep l) := h.more [_] rfl rfl rfl (fun a b => ⟨a, b, rfl⟩) hl'
    exact hb.same (parseLine_trace p _) (parseLine_wbuf p _) (fun h1 h2 => parseLine_tx p _ h1 h2)
      (eff_parseLine (x := NoHeader) (st := false) p _).later
  drop d h _ _ hs := h.more [_] rfl rfl (by simp) (by simp [hs])
      (Eff.flushReadBuffer (x := NoHeader) (strict := false) d (by simp [Clear])).later
  csq d h _ _ _ _ _ _ :=
    leInv_said h ((said_sendCommand d b!"AT+CSQ").set rfl ⟨rfl, rfl, rfl, rfl, rfl, rfl⟩) (by simp)
      ((Ser.later_writeStr _ _).trans (Ser.later_writeStr _ _))
  mac d h _ _ _ _ _ _ :=
    leInv_said h ((said_sendCommand d b!"AT+CIPSTAMAC").set rfl ⟨rfl, rfl, rfl, rfl, rfl, rfl⟩) (by simp)
      ((Ser.later_writeStr _ _).trans (Ser.later_writeStr _ _))
  act d h hr _ _ _ := leInv_turn h hr (act_turn d)
    (eff_act (x := NoHeader) (st := false) d (by simp [Clear])).later

theorem leI_own : Own LeI where
  reset d h := leInv_reset h rfl rfl rfl (Ser.later_flush _)
  ext _ _ h := h.same rfl rfl (fun a b => ⟨a, b, rfl⟩) (.refl _)

end CC1352P7

/-- Not a transmission of the application. -/
def driverEv : Ev → Bool
  | .userTx _ => false
  | _ => true

/-- The driver's own code is not the application. -/
theorem Dev.Eff.noUser {x : List Byte → Byte → Prop} {st : Bool} {d e : Dev S R X} (h : Eff x st d e) :
    ∃ new, e.trace = d.trace ++ new ∧ new.all driverEv = true := by
  induction h with
  | ctl h => exact ⟨[], by simp [h.trace], rfl⟩
  | cmd d s => exact ⟨[.cmd s _], rfl, rfl⟩
  | arg d s => exact ⟨[.arg s _], rfl, rfl⟩
  | cmdN d s => exact ⟨[.cmd s _], rfl, rfl⟩
  | argN d s => exact ⟨[.arg s _], rfl, rfl⟩
  | askSpace d => exact ⟨[], by simp, rfl⟩
  | askAvail d => exact ⟨[], by simp, rfl⟩
  | flushSer d => exact ⟨[.flush], rfl, rfl⟩
  | flushReadBuffer d _ => exact ⟨[.drop _], rfl, rfl⟩
  | sendData d => exact ⟨[.pay _], rfl, rfl⟩
  | receive d _ =>
    unfold Dev.receive
    split
    · exact ⟨[.data _], rfl, rfl⟩
    · exact ⟨[], by simp, rfl⟩
  | fillLine d stop _ =>
    unfold Dev.fillLine
    split
    · dsimp only
      split
      · exact ⟨[], by simp, rfl⟩
      · exact ⟨[.line _], rfl, rfl⟩
    · exact ⟨[], by simp, rfl⟩
  | trans _ _ h k =>
    obtain ⟨x, h1, h2⟩ := h
    obtain ⟨y, k1, k2⟩ := k
    exact ⟨x ++ y, by rw [k1, h1, List.append_assoc], by rw [List.all_append, h2, k2]; rfl⟩

theorem Dev.Eff.user {x : List Byte → Byte → Prop} {st : Bool} {d e : Dev S R X} (h : Eff x st d e) (bs : List Byte) :
    .userTx bs ∉ e.trace.drop d.trace.length := by
  obtain ⟨new, h1, h2⟩ := h.noUser
  rw [h1, List.drop_left]
  intro hm
  have := List.all_eq_true.mp h2 _ hm
  simp [driverEv] at this

/-- A run sends nothing but a block of payload, or no payload. -/
theorem payFits_run {d e : Dev S R X} (h1 : Adds 1 d e) (h2 : LeInv sd e) (hsz : e.ser.tx.ring.size = d.ser.tx.ring.size)
    (hu : ∀ bs, .userTx bs ∉ e.trace.drop d.trace.length)
    (he : ∀ bs, .pay bs ∈ e.trace.drop d.trace.length → d.ser.tx.ring.avail = 0) : PayFits d e := by
  obtain ⟨new, ht, hs, hb⟩ := h1
  have hp := h2.pays
  rw [ht, List.drop_left] at hu he
  rw [ht] at hp
  simp only [PayFits, ht, List.drop_left]
  by_cases hn : new.all noPay = true
  · exact Or.inl hn
  · right
    obtain ⟨x, hx, hx'⟩ : ∃ x ∈ new, noPay x = false := by
      simp only [List.all_eq_true, Classical.not_forall] at hn
      obtain ⟨x, hx, hx'⟩ := hn
      exact ⟨x, hx, by simpa using hx'⟩
    cases x <;> simp [noPay] at hx'
    rename_i bs
    obtain ⟨a, b, rfl⟩ := List.append_of_mem hx
    have hz : sends a = 0 ∧ sends b = 0 := by
      unfold sends at *
      rw [List.filter_append, List.filter_cons_of_pos (by rfl), List.length_append, List.length_cons] at hs
      omega
    have hc : ∀ l, sends l = 0 → l.any isCmd = false := by
      intro l hl
      rw [List.any_eq_false]
      intro y hy hyc
      unfold sends at hl
      rw [List.length_eq_zero_iff, List.filter_eq_nil_iff] at hl
      have := hl y hy
      cases y <;> simp [isCmd, sent] at *
    have hna : (a ++ .pay bs :: b).any isArg = false := by
      unfold argsBelong at hb
      have : (a ++ .pay bs :: b).any isCmd = false := by
        rw [List.any_append, List.any_cons, hc a hz.1, hc b hz.2]; rfl
      rw [this] at hb
      simpa using hb
    rw [List.any_append, List.any_cons] at hna
    simp only [Bool.or_eq_false_iff] at hna
    have hg : ∀ l, sends l = 0 → l.any isArg = false → (∀ y ∈ l, y ∈ a ++ .pay bs :: b) → givenAll l = [] := by
      intro l h0 h3 hm
      rw [givenAll, List.flatMap_eq_nil_iff]
      intro y hy
      have k1 : isArg y = false := by
        have := List.any_eq_false.mp h3 y hy; simpa using this
      have k2 : (sent y).isSome = false := by
        unfold sends at h0
        rw [List.length_eq_zero_iff, List.filter_eq_nil_iff] at h0
        have := h0 y hy; simpa using this
      cases y <;> first | rfl | (simp [isArg] at k1; done) | (simp [sent] at k2; done) | skip
      exact absurd (hm _ hy) (hu _)
    have ea := hg a hz.1 hna.1 fun y hy => by simp [hy]
    have eb := hg b hz.2 hna.2.2 fun y hy => by simp [hy]
    have e1 : givenAll (a ++ .pay bs :: b) = bs := by
      simp only [givenAll, List.flatMap_append, List.flatMap_cons] at *
      rw [ea, eb]; simp [given]
    rw [e1]
    have h4 := he bs (by simp)
    have h5 := hp bs (by simp)
    simp only [Ring.spaceAvailable, h4]
    omega

theorem pay_common (d : Dev S R X) (op : Op) : ((d.common op).trace.drop d.trace.length).all noPay = true := by
  cases op with
  | serialWrite s =>
    simp only [Dev.common, Dev.serialWrite]
    split <;> simp [noPay]
  | serialRead n =>
    simp only [Dev.common, Dev.serialRead]
    split <;> simp [noPay]
  | _ => simp [Dev.common, Dev.setHostPort, Dev.requestRSSI, noPay]

theorem pay_logConnect {d : Dev S R X} {r : Dev S R X × Bool} (h : r.1.trace = d.trace) :
    ((Dev.logConnect r).trace.drop d.trace.length).all noPay = true := by
  unfold Dev.logConnect
  split <;> simp [Dev.log, h, noPay]

theorem fits_of_drained {d e : Dev S R X} (h1 : Adds 1 d e) (h2 : LeInv sd e) (hsz : e.ser.tx.ring.size = d.ser.tx.ring.size)
    (hu : ∀ bs, .userTx bs ∉ e.trace.drop d.trace.length) (hd : PayWhenDrained d e) : PayFits d e := by
  rcases hd with hd | hd
  · exact Or.inl hd
  · exact payFits_run h1 h2 hsz hu fun _ _ => hd

theorem Sim7x00.fits_step (p : Platform) {d : D} {op : Op} (h : LeI (step p d op)) (hd : PayWhenDrained d (step p d op)) :
    PayFits d (step p d op) := by
  cases op with
  | run ok =>
    have he := eff_run (x := NoHeader) (st := false) p d ok (by simp)
    exact fits_of_drained (adds_run p d ok) h he.later.txSize he.user hd
  | connect => exact Or.inl (pay_logConnect (by simp))
  | resetStates => exact Or.inl (by simp [step, SimDev.resetStates, noPay])
  | serialLock =>
    refine Or.inl ?_
    simp only [step, SimDev.serialLock]
    split <;> simp
  | setApn | serialUnlock | requestID => exact Or.inl (by simp [step, SimDev.setApn, SimDev.serialUnlock, SimDev.requestIDString])
  | _ => exact Or.inl (pay_common d _)

theorem Sim800.fits_step (p : Platform) {d : D} {op : Op} (h : LeI (step p d op)) (hd : PayWhenDrained d (step p d op)) :
    PayFits d (step p d op) := by
  cases op with
  | run ok =>
    have he := eff_run (x := NoHeader) (st := false) p d ok (by simp)
    exact fits_of_drained (adds_run p d ok) h he.later.txSize he.user hd
  | connect => exact Or.inl (pay_logConnect (by simp))
  | resetStates => exact Or.inl (by simp [step, SimDev.resetStates, noPay])
  | serialLock =>
    refine Or.inl ?_
    simp only [step, SimDev.serialLock]
    split <;> simp
  | setApn | serialUnlock | requestID => exact Or.inl (by simp [step, SimDev.setApn, SimDev.serialUnlock, SimDev.requestIDString])
  | _ => exact Or.inl (pay_common d _)

theorem Espressif.fits_step (p : Platform) {d : D} {op : Op} (h : LeI (step p d op)) (hd : PayWhenDrained d (step p d op)) :
    PayFits d (step p d op) := by
  cases op with
  | run ok =>
    have he := eff_run (st := false) p d ok (by simp)
    exact fits_of_drained (adds_run p d ok) h he.later.txSize he.user hd
  | connect => exact Or.inl (pay_logConnect (by simp))
  | resetStates => exact Or.inl (by simp [step, resetStates, noPay])
  | setSSID | setPassword | requestMac => exact Or.inl (by simp [step, setSSID, setPassword, requestMac])
  | _ => exact Or.inl (pay_common d _)

theorem CC1352P7.fits_step (p : Platform) {d : D} {op : Op} (h : LeI (step p d op)) (hd : PayWhenDrained d (step p d op)) :
    PayFits d (step p d op) := by
  cases op with
  | run ok =>
    have he := eff_run (x := NoHeader) (st := false) p d ok (by simp)
    exact fits_of_drained (adds_run p d ok) h he.later.txSize he.user hd
  | connect => exact Or.inl (pay_logConnect (by simp))
  | resetStates => exact Or.inl (by simp [step, resetStates, noPay])
  | requestMac => exact Or.inl (by simp [step, requestMac])
  | _ => exact Or.inl (pay_common d _)

end Verif
