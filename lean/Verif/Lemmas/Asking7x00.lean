import Verif.Lemmas.AskingSim

/-! Questions to the SIM7x00. -/

namespace Verif

open Dev Spec

namespace Sim7x00

variable {p : Platform} {c : Conf} {apn addr : Option (List Byte)} {t0 : List Ev} {T : List (List Byte)} {q : St Snd Rep}
  {d g : D} {n : Nat} {l : List Byte} {I : Bool → Int → SimExt → Prop}

theorem act_rssi (d : D) : (act d).rssi = d.rssi := by
  unfold act
  split <;> (try unfold Dev.handleConnect) <;> (try unfold actCgsockcont) <;> (try unfold actCipopen) <;>
    (try unfold actConnected) <;> (try unfold actCiprxget2) <;> (try unfold actReceiving) <;>
    (try unfold Dev.handleDisconnect) <;> (try dsimp only) <;> (repeat' split) <;> simp_all

/-- While waiting, nothing happens. -/
theorem ask_idle (p : Platform) (h : Holds c t0 T q I d) (hw : q.wait ≠ none ∨ q.rep ≠ .okReply) (hs : q.snd ≠ .receiving) :
    Holds c t0 T q I (step p d (.run true)) := by
  show Holds _ _ _ _ _ (run p d true)
  rw [run_calm h.1 hs, proceed_wait h.1 hw]; exact h

section
variable (p) (hr : 60 ≤ c.rx) (hn : c.tx ≤ n)
include hr hn

/-- A piece of a line. -/
theorem ask_more {u v w : List Byte} (h : Holds (c.mid u) t0 T q I d) (hw : q.wait ≠ none ∨ q.rep ≠ .okReply)
    (hs : q.snd ≠ .receiving) (hl : IsLine (u ++ v ++ w)) (hw0 : w ≠ []) :
    Holds (c.mid (u ++ v)) t0 T q I (step p (hearing d n v) (.run true)) := by
  obtain ⟨g, e, h1, h3, h4⟩ := h.1.more (v := v) hn hl hw0 hr (SimDev.lineStop d.rep)
    (fun m k x _ h1 h2 h3 => by
      unfold SimDev.lineStop
      rw [if_neg]; simp [h1, h2]; omega)
  have hg : Holds (c.mid (u ++ v)) t0 T q I g := by
    obtain ⟨e1, e2, e3⟩ := fillLine_same e
    refine ⟨h1, ?_⟩
    rw [e1, e2, e3]; exact h.2
  have : run p (hearing d n v) true = work p (hearing d n v) := by
    unfold run
    rw [if_neg (by simp [h.1.calm.isOpen]), if_neg (by simp [h.1.calm.lock]), if_neg (by simp [h.1.calm.reset])]
  show Holds _ _ _ _ _ (run p _ true)
  rw [this]
  unfold work SimDev.fillLineBuffer
  rw [show (hearing d n v).rep = d.rep from rfl, e]
  show Holds _ _ _ _ _ (proceed (flushIfDisconnecting g))
  unfold flushIfDisconnecting
  rw [if_neg (fun x => hs (h1.snd ▸ x.2)), proceed_wait h1 hw]
  exact hg

/-- A line. -/
theorem ask_heard {u v : List Byte} (h : Holds (c.mid u) t0 T q I d) (hl : IsLine (u ++ v)) (hv : v ≠ []) :
    ∃ g, Holds (c.mid []) t0 T q I g ∧ LineDone g (u ++ v) ∧ g.ser.txFree = c.tx ∧
      step p (hearing d n v) (.run true) = if (parseLine p g).2 then (parseLine p g).1 else proceed (parseLine p g).1 := by
  obtain ⟨g, e, h1, h2, h3, h4⟩ := h.1.heard hn hl hv hr (SimDev.lineStop d.rep)
    (fun m k x _ h1 h2 h3 => by
      unfold SimDev.lineStop
      rw [if_neg]; simp [h1, h2]; omega) (fun m k => rfl)
  obtain ⟨e1, e2, e3⟩ := fillLine_same e
  refine ⟨g, ⟨h1, by rw [e1, e2, e3]; exact h.2⟩, h2, h3, ?_⟩
  have : run p (hearing d n v) true = work p (hearing d n v) := by
    unfold run
    rw [if_neg (by simp [h.1.calm.isOpen]), if_neg (by simp [h.1.calm.lock]), if_neg (by simp [h.1.calm.reset])]
  show run p _ true = _
  rw [this]
  unfold work SimDev.fillLineBuffer
  rw [show (hearing d n v).rep = d.rep from rfl, e]
  simp

/-- A line after which the driver still waits. -/
theorem ask_line {u v : List Byte} {q' : St Snd Rep} {I' : Bool → Int → SimExt → Prop} (h : Holds (c.mid u) t0 T q I d)
    (hl : IsLine (u ++ v)) (hv : v ≠ []) (hw : q'.wait ≠ none ∨ q'.rep ≠ .okReply)
    (hp : ∀ g, Holds (c.mid []) t0 T q I g → LineDone g (u ++ v) → (parseLine p g).2 = false ∧ Holds (c.mid []) t0 T q' I' (parseLine p g).1) :
    Holds (c.mid []) t0 T q' I' (step p (hearing d n v) (.run true)) := by
  obtain ⟨g, h1, h2, h3, e⟩ := ask_heard p hr hn h hl hv
  obtain ⟨p1, p2⟩ := hp g h1 h2
  rw [e, p1]
  simp only [Bool.false_eq_true, if_false]
  rw [proceed_wait p2.1 hw]; exact p2

/-- An answer after which the driver still waits. -/
theorem ask_beat (hm : c.part = []) {a : Await} {q' : St Snd Rep} {I' : Bool → Int → SimExt → Prop} (hs : q.snd ≠ .receiving) (hs' : q'.snd ≠ .receiving)
    (hw : q.wait ≠ none ∨ q.rep ≠ .okReply) (hw' : q'.wait ≠ none ∨ q'.rep ≠ .okReply)
    (hi : ∀ g l, Holds c t0 T q I g → LineDone g l → a.idle l → parseLine p g = (g, false))
    (hg : ∀ g l, Holds c t0 T q I g → LineDone g l → IsLine l → a.good l → (parseLine p g).2 = false ∧ Holds c t0 T q' I' (parseLine p g).1)
    (h : Holds c t0 T q I d) {b : Beat} (hab : Answers a b) : Holds c t0 T q' I' (exec (step p) d (b.ops n)) := by
  have e0 := Conf.mid_nil hm
  refine exec_beat (P := fun u => Holds (c.mid u) t0 T q I) step_irq
    (fun u d hd => ask_idle p hd hw hs)
    (fun u v w d hd hl hw0 _ => ask_more p hr hn hd hw hs hl hw0)
    (fun u v d hd hl hv hx => ask_line p hr hn hd hl hv hw fun g h1 h2 => by
      rw [e0] at h1 ⊢
      rw [hi g _ h1 h2 hx]
      exact ⟨rfl, h1⟩)
    (fun u v d hd hl hv hx => ?_) (fun d hd => ask_idle p hd hw' hs') (e0.symm ▸ h) hab
  rw [← e0]
  exact ask_line p hr hn hd hl hv hw' fun g h1 h2 => by
    rw [e0] at h1 ⊢
    exact hg g _ h1 h2 hl hx

end

/-! ### The place -/

/-- Not connected or connected, waiting for `w` and the reply `r`; the signal strength is asked for or not. -/
abbrev place (on : Bool) (r : Rep) (w : Option (List Byte)) (k : Bool) : St Snd Rep :=
  ⟨if on then .connected else .notConnected, r, w, if on then .connected else .notConnected, false, false, k⟩

/-- Waiting for an answer. -/
abbrev asking (on : Bool) : SimQ → St Snd Rep
  | .signal _ => place on .csq (some b!"OK") true
  | .ident _ _ => place on .requestID (some b!"OK") false

/-- Not connected or connected. -/
def Here (on : Bool) (c : Conf) (apn addr : Option (List Byte)) (t0 : List Ev) (T : List (List Byte)) (d : D) : Prop :=
  (if on then Up c apn addr t0 T d else Down c apn addr t0 T d) ∧ d.ext.id.cells.length = idMax

/-- Lines that have a meaning. -/
abbrev bad (on : Bool) : List (List Byte) := if on then busy7x00 else []

theorem checkState_place {on : Bool} {r : Rep} {w : Option (List Byte)} {k : Bool} (hg : d.snd = (place on r w k).snd) (hl : LineDone d l)
    (h : ∀ x ∈ bad on, ¬ x <+: l) : checkState d = d := by
  cases on with
  | false => exact checkState_low (by rw [hg]; show ¬ Snd.connected.idx ≤ Snd.notConnected.idx; decide)
  | true => exact checkState_clear hl h

theorem Here.holds {on : Bool} (h : Here on c apn addr t0 T d) :
    Holds c t0 T (place on .okReply none false) (fun i _ x => (on = true → i = true) ∧ SimDev.ChatExt apn addr x ∧ x.id.cells.length = idMax) d ∧
      d.ser.txFree = c.tx := by
  obtain ⟨h, hs⟩ := h
  cases on with
  | false => exact ⟨⟨h.1.with trivial, by simp, h.1.ext, hs⟩, h.2⟩
  | true => exact ⟨⟨h.1.with trivial, fun _ => h.2.1, h.1.ext, hs⟩, h.2.2⟩

/-- Nothing is asked any more. -/
theorem act_here {on : Bool} (hI : c.Idle) {K : Int → SimExt → Prop}
    (h : Holds c t0 T (place on .okReply none false) (fun i r x => (on = true → i = true) ∧ SimDev.ChatExt apn addr x ∧ x.id.cells.length = idMax ∧ K r x) d)
    (hf : d.ser.txFree = c.tx) :
    Here on c apn addr t0 T (act d) ∧ K (act d).rssi (act d).ext := by
  have h1 := h.1.with h.2.2.1
  have hx := (act_id d).1
  refine ⟨⟨?_, by rw [hx]; exact h.2.2.2.1⟩, by rw [hx, act_rssi]; exact h.2.2.2.2⟩
  cases on with
  | false =>
    have := act_rest h1
    exact ⟨this.1, by rw [this.2]; exact hf⟩
  | true =>
    have := act_stay hI h1
    exact ⟨this.1, by rw [this.2.1]; exact h.2.1 rfl, by rw [this.2.2]; exact hf⟩

theorem here_idle {on : Bool} (ht : 20 ≤ c.tx) (hI : c.Idle) {K : Int → SimExt → Prop} (h : Here on c apn addr t0 T d ∧ K d.rssi d.ext) :
    Here on c apn addr t0 T (step p d (.run true)) ∧ K (step p d (.run true)).rssi (step p d (.run true)).ext := by
  obtain ⟨h1, h2⟩ := h.1.holds
  have h3 := h1.1.with h1.2.2.1
  have e : step p d (.run true) = act d := by
    show run p d true = _
    rw [run_calm h3 (by cases on <;> simp), proceed_act h3 rfl rfl (by omega)]
  rw [e]
  exact act_here hI ⟨h1.1, h1.2.1, h1.2.2.1, h1.2.2.2, h.2⟩ h2

section
variable (p) (hr : 60 ≤ c.rx) (ht : 20 ≤ c.tx) (hn : c.tx ≤ n) (hI : c.Idle) (hm : c.part = [])
include hr ht hn hI hm

/-- OK: the value is there. -/
theorem ask_ok {on : Bool} {K : Int → SimExt → Prop}
    (h : Holds c t0 T (place on .okReply (some b!"OK") false)
      (fun i r x => (on = true → i = true) ∧ SimDev.ChatExt apn addr x ∧ x.id.cells.length = idMax ∧ K r x) d)
    {b : Beat} (hab : Answers (await b!"OK" (b!"ERROR" :: bad on)) b) :
    Here on c apn addr t0 T (exec (step p) d (b.ops n)) ∧
      K (exec (step p) d (b.ops n)).rssi (exec (step p) d (b.ops n)).ext := by
  have e0 := Conf.mid_nil hm
  have hs : (place on .okReply (some b!"OK") false).snd ≠ .receiving := by cases on <;> simp
  refine exec_beat (P := fun u => Holds (c.mid u) t0 T (place on .okReply (some b!"OK") false) _)
    (Q := fun d => Here on c apn addr t0 T d ∧ K d.rssi d.ext) step_irq
    (fun u d hd => ask_idle p hd (.inl (by simp)) hs)
    (fun u v w d hd hl hw0 _ => ask_more p hr hn hd (.inl (by simp)) hs hl hw0)
    (fun u v d hd hl hv hx => ask_line p hr hn hd hl hv (.inl (by simp)) fun g h1 h2 => ?_)
    (fun u v d hd hl hv hx => ?_) (fun d hd => here_idle ht hI hd) (e0.symm ▸ h) hab
  · rw [parseLine_eq (parseWait_clear h2 h1.1.wait (by decide) (hx _ (by simp)) (hx _ (by simp))) (parseReply_ok h1.1.rep),
      checkState_place h1.1.snd h2 fun y hy => hx y (by simp [hy])]
    exact ⟨rfl, h1⟩
  · obtain ⟨g, h1, h2, h3, e⟩ := ask_heard p hr hn hd hl hv
    rw [e0] at h1
    have hc : ∀ x ∈ bad on, ¬ x <+: u ++ v := by
      intro x hx'
      cases on with
      | false => simp at hx'
      | true =>
        simp only [bad, busy7x00, if_true, List.mem_cons, List.not_mem_nil, or_false] at hx'
        rcases hx' with rfl | rfl <;> exact not_prefix_of hx (by decide) (by decide)
    have hg2 : Holds c t0 T (place on .okReply none false)
        (fun i r x => (on = true → i = true) ∧ SimDev.ChatExt apn addr x ∧ x.id.cells.length = idMax ∧ K r x) ({ g with wait := none } : D) :=
      ⟨(h1.1.set ({ g with wait := none } : D) rfl rfl rfl h1.1.calm.lineRead).at (by
        show (⟨g.snd, g.rep, none, g.cs, g.disconnectPending, g.connectPending, decide (g.rssi = int16Max)⟩ : St _ _) = _
        simp [h1.1.snd, h1.1.rep, h1.1.cs, h1.1.disc, h1.1.conn, h1.1.ask]), h1.2⟩
    rw [e, parseLine_eq (parseWait_good h2 h1.1.wait (by decide) hx) (parseReply_ok h1.1.rep),
      checkState_place (d := ({ g with wait := none } : D)) h1.1.snd ⟨h2.text, h2.zero, h2.fill⟩ hc]
    simp only [Bool.false_eq_true, if_false]
    rw [proceed_act (hg2.1.with hg2.2.2.1) rfl rfl (by show 20 ≤ g.ser.txFree; omega)]
    exact act_here hI hg2 h3

omit hr hn hI hm in
/-- The question is passed on. -/
theorem ask_sent {on : Bool} (q : SimQ) (hq : q.Fine) (h : Here on c apn addr t0 T d) (k : Nat) :
    Holds c t0 (T ++ [q.say iccidCommand])
      (asking on q)
      (fun i _ x => (on = true → i = true) ∧ SimDev.AskExt apn addr x ∧ SimDev.kept apn addr q x)
      (exec (step p) d (q.op :: List.replicate (k + 1) (.run true))) := by
  obtain ⟨⟨h1, h4, h5, h6⟩, hf⟩ := h.holds
  have hs : ∀ r w k, (place on r w k).snd ≠ .receiving := fun _ _ _ => by cases on <;> simp
  cases q with
  | signal m =>
    have h2 : Chat c apn addr t0 T (place on .okReply none true) (step p d .requestRSSI) :=
      h1.value int16Max d.ext d.rep h5 (by rw [h1.rep]; rfl)
    have f2 : (step p d .requestRSSI).ser.txFree = c.tx := hf
    have i2 : (on = true → (step p d .requestRSSI).ipConnected = true) ∧ SimDev.AskExt apn addr (step p d .requestRSSI).ext ∧
        SimDev.ChatExt apn addr (step p d .requestRSSI).ext := ⟨h4, h5.ask h6, h5⟩
    show Holds _ _ _ _ _ (exec (step p) (step p (step p d .requestRSSI) (.run true)) (List.replicate k (.run true)))
    generalize step p d .requestRSSI = d1 at h2 f2 i2 ⊢
    refine exec_runs (fun d hd => ask_idle p hd (.inl (by simp)) (hs _ _ _)) ?_ k
    have e : step p d1 (.run true) = { d1.sendCommand b!"AT+CSQ" with rep := .csq, wait := some okStr } := by
      show run p d1 true = _
      rw [run_calm h2 (hs _ _ _)]
      unfold proceed
      rw [h2.wait, h2.rep, if_neg (by simp), h2.calm.serSpace, if_neg (by omega), h2.calm.askSpace]
      unfold sendNext
      rw [if_pos ⟨by rw [h2.ask], h2.calm.lineRead⟩]
    rw [e]
    have hx : b!"AT+CSQ\r\n".length ≤ d1.ser.txFree := by simp; omega
    have h2 := h2.with (E' := fun _ => True) trivial
    refine ⟨?_, i2⟩
    said h2 hx (Wrote.command h2.calm.ser _ (by decide))
  | ident t s =>
    obtain ⟨r1, r2, r3, r4⟩ := SimDev.requested h6 t.code
    have h2 : Talk c (fun _ => True) t0 T (place on .okReply none false) (step p d (.requestID t)) :=
      h1.value d.rssi (step p d (.requestID t)).ext d.rep trivial (by simp [h1.rep, h1.ask])
    have f2 : (step p d (.requestID t)).ser.txFree = c.tx := hf
    have i2 : (on = true → (step p d (.requestID t)).ipConnected = true) ∧ SimDev.AskExt apn addr (step p d (.requestID t)).ext ∧
        (step p d (.requestID t)).ext.id.get 0 = 0 ∧ (step p d (.requestID t)).ext.id.get 1 = t.code ∧
        (step p d (.requestID t)).ext.id.get 2 = t.code := ⟨h4, ⟨h5.apn, h5.ip, h5.max, h5.addr, r1⟩, r2, r3, r4⟩
    show Holds _ _ _ _ _ (exec (step p) (step p (step p d (.requestID t)) (.run true)) (List.replicate k (.run true)))
    generalize step p d (.requestID t) = d1 at h2 f2 i2 ⊢
    refine exec_runs (fun d hd => ask_idle p hd (.inl (by simp)) (hs _ _ _)) ?_ k
    obtain ⟨j1, j2, j3, j4, j5⟩ := i2
    obtain ⟨cmd, c1, c2, c3⟩ := SimDev.idRequest iccidCommand s hq.1 j3 j4 h2.calm.lineRead
    have c2 : cmd.length ≤ 9 ∧ (0 : Byte) ∉ cmd := by
      rcases c2 with rfl | c2
      · exact ⟨by decide, by decide⟩
      · exact ⟨by omega, c2.2⟩
    have e : step p d1 (.run true) = { ({ d1 with ext := { d1.ext with id := d1.ext.id.store 1 0 } } : D).sendCommand cmd with
        rep := .requestID, wait := some okStr } := by
      show run p d1 true = _
      rw [run_calm h2 (hs _ _ _)]
      unfold proceed
      rw [h2.wait, h2.rep, if_neg (by simp), h2.calm.serSpace, if_neg (by omega), h2.calm.askSpace]
      unfold sendNext
      rw [if_neg (by simp [h2.ask]), c3]
      rfl
    rw [e]
    obtain ⟨k1, k2⟩ := SimDev.taken j2.size
    have h3 : Talk c (fun _ => True) t0 T (place on .okReply none false) ({ d1 with ext := { d1.ext with id := d1.ext.id.store 1 0 } } : D) :=
      h2.value d1.rssi _ d1.rep trivial (by simp [h2.rep, h2.ask])
    have hx : (cmd ++ b!"\r\n").length ≤ ({ d1 with ext := { d1.ext with id := d1.ext.id.store 1 0 } } : D).ser.txFree := by
      show _ ≤ d1.ser.txFree
      simp; omega
    refine ⟨?_, j1, ⟨j2.apn, j2.ip, j2.max, j2.addr, k1⟩, k2.trans j5⟩
    rw [c1]
    said h3 hx (Wrote.command h3.calm.ser _ c2.2)

omit ht hI in
/-- The line with the value. -/
theorem ask_value {on : Bool} (q : SimQ) (hq : q.Fine)
    (h : Holds c t0 T
      (asking on q)
      (fun i _ x => (on = true → i = true) ∧ SimDev.AskExt apn addr x ∧ SimDev.kept apn addr q x) d)
    {b : Beat} {value ok : Await} (hv : ask7x00 (bad on) q = answer value ok) (hab : Answers value b) :
    Holds c t0 T (place on .okReply (some b!"OK") false)
      (fun i r x => (on = true → i = true) ∧ SimDev.ChatExt apn addr x ∧ x.id.cells.length = idMax ∧ SimDev.got q r x)
      (exec (step p) d (b.ops n)) := by
  have hs : ∀ r w k, (place on r w k).snd ≠ .receiving := fun _ _ _ => by cases on <;> simp
  cases q with
  | signal m =>
    obtain rfl : value = _ := (Exchange.mk.inj (List.cons.inj hv).1).1.symm
    refine ask_beat p hr hn hm (hs _ _ _) (hs _ _ _) (.inl (by simp)) (.inl (by simp)) ?_ ?_ h hab
    · rintro g l hg hl ⟨hc, hi⟩
      have hw := parseWait_clear hl hg.1.wait (by decide) (hc _ (by simp)) (hc _ (by simp))
      rw [parseLine_eq hw (b := g) (by unfold parseReply; rw [hg.1.rep]; dsimp only; rw [SimDev.parseCsq_no p hl hi]; rfl),
        checkState_place hg.1.snd hl fun y hy => hc y (by simp [hy])]
    · rintro g l hg hl - ⟨hv, hc⟩
      have hw := parseWait_clear hl hg.1.wait (by decide) (hc _ (by simp)) (hc _ (by simp))
      rw [parseLine_eq hw (b := { g with rssi := rssiSpec m, rep := .okReply })
          (by unfold parseReply; rw [hg.1.rep]; dsimp only; rw [SimDev.parseCsq_yes p hl hv hq]; rfl),
        checkState_place (d := { g with rssi := rssiSpec m, rep := .okReply }) hg.1.snd ⟨hl.text, hl.zero, hl.fill⟩
          fun y hy => hc y (by simp [hy])]
      exact ⟨rfl, hg.1.value (rssiSpec m) g.ext .okReply trivial (by simp [SimDev.rssi_ne]), hg.2.1, hg.2.2.2, hg.2.2.1.size, rfl⟩
  | ident t s =>
    obtain rfl : value = _ := (Exchange.mk.inj (List.cons.inj hv).1).1.symm
    refine ask_beat p hr hn hm (hs _ _ _) (hs _ _ _) (.inl (by simp)) (.inl (by simp)) ?_ ?_ h hab
    · rintro g l hg hl ⟨hc, hi⟩
      have hw := parseWait_clear hl hg.1.wait (by decide) (hc _ (by simp)) (hc _ (by simp))
      rw [parseLine_eq hw (b := g) (by unfold parseReply; rw [hg.1.rep]; dsimp only; rw [SimDev.parseId_no hl hi]; rfl),
        checkState_place hg.1.snd hl fun y hy => hc y (by simp [hy])]
    · rintro g l hg hl hli ⟨hv, hc⟩
      have hw := parseWait_clear hl hg.1.wait (by decide) (hc _ (by simp)) (hc _ (by simp))
      obtain ⟨i, e, i1, i2, i3⟩ := SimDev.parseId_yes hl hli hv hq hg.2.2.2 hg.2.2.1.size hg.1.calm.line.len
      have hx : SimDev.AskExt apn addr { g.ext with id := i } :=
        ⟨hg.2.2.1.apn, hg.2.2.1.ip, hg.2.2.1.max, hg.2.2.1.addr, i1⟩
      rw [parseLine_eq hw (b := { g with ext := { g.ext with id := i }, rep := .okReply })
          (by unfold parseReply; rw [hg.1.rep]; dsimp only; rw [e]; rfl),
        checkState_place (d := { g with ext := { g.ext with id := i }, rep := .okReply }) hg.1.snd ⟨hl.text, hl.zero, hl.fill⟩
          fun y hy => hc y (by simp [hy])]
      exact ⟨rfl, hg.1.value g.rssi { g.ext with id := i } .okReply trivial (by simp [hg.1.ask]), hg.2.1, hx.chat (.inr i3), i1, i2, i3⟩

/-- A question. -/
theorem query_ok {on : Bool} {i : Query SimQ} (hf : i.what.Fine) (hb : Dialogue (ask7x00 (bad on) i.what) i.beats)
    (h : Here on c apn addr t0 T d) :
    Here on c apn addr t0 (T ++ [i.what.say iccidCommand]) (exec (step p) d (i.ops SimQ.op n)) ∧
      SimDev.got i.what (exec (step p) d (i.ops SimQ.op n)).rssi (exec (step p) d (i.ops SimQ.op n)).ext := by
  unfold Query.ops
  rw [exec_append]
  exact exec_answer (P3 := fun d => Here on c apn addr t0 (T ++ [i.what.say iccidCommand]) d ∧ SimDev.got i.what d.rssi d.ext)
    hb (fun d b hd ha => ask_value p hr hn hm i.what hf hd rfl ha)
    (fun d b hd ha => ask_ok p hr ht hn hI hm hd ha) (ask_sent p ht i.what hf h i.runs)

theorem inquiry_ok {on : Bool} {is : List (Query SimQ)}
    (hi : ∀ i ∈ is, i.what.Fine ∧ Dialogue (ask7x00 (bad on) i.what) i.beats) (h : Here on c apn addr t0 T d) :
    Here on c apn addr t0 (T ++ is.map fun i => i.what.say iccidCommand) (exec (step p) d (inquiry SimQ.op n is)) := by
  induction is generalizing d T with
  | nil => simpa [inquiry, exec] using h
  | cons i is ih =>
    show Here _ _ _ _ _ _ (exec (step p) d (i.ops SimQ.op n ++ inquiry SimQ.op n is))
    rw [exec_append]
    have := ih (fun j hj => hi j (by simp [hj])) (query_ok p hr ht hn hI hm (hi i (by simp)).1 (hi i (by simp)).2 h).1
    simpa using this

end

/-- The application gets the value. -/
theorem Here.answered {on : Bool} {q : SimQ} (h : Here on c apn addr t0 T d) (hg : SimDev.got q d.rssi d.ext) : q.Answered d := by
  cases q with
  | signal m => exact hg
  | ident t s =>
    have hw : d.wait = none := h.holds.1.1.wait
    show SimDev.getIDString d = _
    unfold SimDev.getIDString
    rw [if_pos ⟨hw, hg.2⟩, hg.1]

end Sim7x00
end Verif
