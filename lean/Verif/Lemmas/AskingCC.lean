import Verif.Lemmas.AskingEsp
import Verif.Lemmas.ChatCC

/-! Questions to the CC1352P7. -/

namespace Verif

open Dev Spec

namespace CC1352P7

variable {p : Platform} {c : Conf} {t0 : List Ev} {T : List (List Byte)} {q : St Snd Rep}
  {d g : D} {n : Nat} {l : List Byte} {I : Bool → Int → CcExt → Prop}

theorem act_ext (d : D) : (act d).ext = d.ext ∧ (act d).rssi = d.rssi := by
  unfold act
  split <;> (try unfold Dev.handleConnect) <;> (try unfold actCipstart) <;>
    (try unfold actConnected) <;> (try unfold actCiprecvdata) <;> (try unfold sendCiprcvdata) <;> (try unfold actReceiving) <;>
    (try unfold Dev.handleDisconnect) <;> (try dsimp only) <;> (repeat' split) <;> simp_all

/-- The size of the buffer for the address. -/
def MacLen (d : D) : Prop := d.ext.mac.cells.length = macMax

theorem macLen_calls : Calls MacLen where
  io _ _ _ _ _ h := h
  isOpen _ _ h := h
  conn _ h _ _ := h
  disc0 _ h _ := h
  disc _ h _ := h
  write0 _ h _ := h
  write _ _ h _ := h
  read _ _ h := h
  rssi _ h := h
  userTx _ _ _ _ h := h
  userRx _ _ _ _ h := h
  host _ _ _ _ h := h

theorem macLen_reply (p : Platform) {d : D} (h : MacLen d) : MacLen (parseReply p d) := by
  unfold MacLen at h ⊢
  unfold parseReply parseCsq parseMac parseCiprecvdata
  split <;> (try dsimp only) <;> (repeat' split) <;> simp_all [copyUntil_len]

theorem macLen_sections (p : Platform) : Sections p MacLen where
  fail _ h _ := h
  reset d h _ := by
    unfold handleReset
    dsimp only
    split
    · unfold Dev.ipConnect; (repeat' split) <;> exact h
    · exact h
  line d s m l _ h _ _ _ _ _ := by
    have h0 : MacLen (d.gotLine s m d.rep l) := h
    have hw : MacLen (parseWait (d.gotLine s m d.rep l)) := by
      unfold parseWait; split <;> exact h0
    unfold parseLine
    split
    · exact h
    · have := macLen_reply p hw
      unfold checkState
      dsimp only
      (repeat' split) <;> exact this
  drop _ h _ _ _ := h
  csq _ h _ _ _ _ _ _ := h
  mac d h _ _ _ _ _ _ := by
    have h : d.ext.mac.cells.length = macMax := h
    simp [MacLen, Mem.store, h]
  act d h _ _ _ _ := by unfold MacLen; rw [(act_ext d).1]; exact h

theorem macLen_exec (p : Platform) {d : D} (hv : Inv d) (h : MacLen d) (ops : List Op) : MacLen (exec (step p) d ops) := by
  refine (exec_inv (step := step p) (I := fun d => Inv d ∧ MacLen d) (ok := fun _ => True)
    (fun d op _ h => ⟨step_inv p op h.1, ?_⟩) ⟨hv, h⟩ ops fun _ _ => trivial).2
  obtain ⟨hv, h⟩ := h
  cases op with
  | run ok => exact (macLen_sections p).run macLen_calls.toPort hv.1.line h ok
  | connect =>
    simp only [step]
    exact macLen_calls.ipConnect h
  | resetStates => exact h
  | requestMac =>
    have h : d.ext.mac.cells.length = macMax := h
    simp [step, requestMac, MacLen, Mem.store, h]
  | _ => simp only [step]; exact macLen_calls.common h _

/-! ### The lines -/

theorem csq_value {v : Int} (hl : LineDone d l) (hv : (MacQ.signal v).valueCC l) (hf : (MacQ.signal v).Fine p) :
    parseCsq p d = ({ d with rssi := v }, true) := by
  obtain ⟨rest, e, h4⟩ := hv
  obtain ⟨m, hm⟩ := hl.drop b!"+CSQ:" (signed v ++ rest) (by rw [e]; simp)
  have hm : d.line.drop 5 = signed v ++ (rest ++ 0 :: m) := by
    have := hm
    simp only [List.append_assoc] at this
    exact this
  have hv := hf.1
  have hv2 := hf.2
  have hx : b!"+CSQ:" <+: l := ⟨signed v ++ rest, by rw [e]; simp⟩
  unfold parseCsq
  rw [hl.has_true (by decide) hx, if_pos rfl, hm, strtol_signed _ (by omega) (by omega) _ (ends_zero h4).noDigit, toInt16_id hv (by omega)]

theorem parseMac_no (hl : LineDone d l) (h : ¬ b!"+CIPSTAMAC:\"" <+: l) : parseMac d = d := by
  unfold parseMac
  rw [hl.has_false (by decide) h]; simp

/-- The address. -/
theorem mac_value {s : List Byte} (hl : LineDone d l) (hi : IsLine l) (hv : (MacQ.mac s).valueCC l) (hf : (MacQ.mac s).Fine p)
    (hs : d.ext.mac.cells.length = macMax) (hlen : d.line.cells.length = lineMax + 1) :
    (SimDev.copyUntil 34 macMax macMax (d.line.drop 12) 0 d.ext.mac).cells.length = macMax ∧
    cstr (SimDev.copyUntil 34 macMax macMax (d.line.drop 12) 0 d.ext.mac).cells = s.take 23 ∧
    (SimDev.copyUntil 34 macMax macMax (d.line.drop 12) 0 d.ext.mac).get 0 ≠ 0 := by
  obtain ⟨rest, e⟩ := hv
  have h0 := Espressif.line_nonzero hi
  rw [e] at h0
  simp only [List.mem_append, not_or] at h0
  obtain ⟨m, hm⟩ := hl.drop b!"+CIPSTAMAC:\"" (s ++ 34 :: rest) (by rw [e]; simp)
  have hm : d.line.drop 12 = s ++ 34 :: (rest ++ 0 :: m) := by
    have := hm
    simp only [List.append_assoc, List.cons_append] at this
    exact this
  have hx : (d.line.drop 12).length = lineMax + 1 - 12 := by
    show (d.line.cells.drop 12).length = _
    rw [List.length_drop, hlen]
  rw [hm] at hx ⊢
  exact copyUntil_text (max := macMax) hs (by decide) (by rw [hx]; decide) hf.2.2 (by simp_all) hf.2.1 (by decide)

/-! ### Reading -/

/-- While waiting, nothing happens. -/
theorem ask_idle (p : Platform) (h : Holds c t0 T q I d) (hw : q.wait ≠ none ∨ q.rep ≠ .okReply) (hs : q.snd ≠ .receiving) :
    Holds c t0 T q I (step p d (.run true)) := by
  show Holds _ _ _ _ _ (run p d true)
  rw [run_calm h.1 hs, proceed_wait h.1 hw]; exact h

section
variable (p) (hr : 60 ≤ c.rx) (hn : c.tx ≤ n)
include hr hn

/-- A piece of a line. -/
theorem ask_more {u v w : List Byte} (h : Holds (c.mid u) t0 T q I d) (hw : q.wait ≠ none ∨ q.rep ≠ .okReply)
    (hs : q.snd ≠ .receiving) (hl : IsLine (u ++ v ++ w)) (hw0 : w ≠ []) :
    Holds (c.mid (u ++ v)) t0 T q I (step p (hearing d n v) (.run true)) := by
  obtain ⟨g, e, h1, h3, h4⟩ := h.1.more (v := v) hn hl hw0 hr (lineStop d.rep)
    (fun m k x _ h1 h2 h3 => by
      unfold lineStop
      rw [if_neg]; simp [h1, h2]; omega)
  have hg : Holds (c.mid (u ++ v)) t0 T q I g := by
    obtain ⟨e1, e2, e3⟩ := fillLine_same e
    refine ⟨h1, ?_⟩
    rw [e1, e2, e3]; exact h.2
  have : run p (hearing d n v) true = work p (hearing d n v) := by
    unfold run
    rw [if_neg (by simp [h.1.calm.isOpen]), if_neg (by simp [h.1.calm.reset])]
  show Holds _ _ _ _ _ (run p _ true)
  rw [this]
  unfold work fillLineBuffer
  rw [show (hearing d n v).rep = d.rep from rfl, e]
  show Holds _ _ _ _ _ (proceed p (flushIfDisconnecting g))
  unfold flushIfDisconnecting
  rw [if_neg (fun x => hs (h1.snd ▸ x.2)), proceed_wait h1 hw]
  exact hg

/-- A line. -/
theorem ask_heard {u v : List Byte} (h : Holds (c.mid u) t0 T q I d) (hl : IsLine (u ++ v)) (hv : v ≠ []) :
    ∃ g, Holds (c.mid []) t0 T q I g ∧ LineDone g (u ++ v) ∧ g.ser.txFree = c.tx ∧
      step p (hearing d n v) (.run true) = if (parseLine p g).2 then (parseLine p g).1 else proceed p (parseLine p g).1 := by
  obtain ⟨g, e, h1, h2, h3, h4⟩ := h.1.heard hn hl hv hr (lineStop d.rep)
    (fun m k x _ h1 h2 h3 => by
      unfold lineStop
      rw [if_neg]; simp [h1, h2]; omega) (fun m k => rfl)
  obtain ⟨e1, e2, e3⟩ := fillLine_same e
  refine ⟨g, ⟨h1, by rw [e1, e2, e3]; exact h.2⟩, h2, h3, ?_⟩
  have : run p (hearing d n v) true = work p (hearing d n v) := by
    unfold run
    rw [if_neg (by simp [h.1.calm.isOpen]), if_neg (by simp [h.1.calm.reset])]
  show run p _ true = _
  rw [this]
  unfold work fillLineBuffer
  rw [show (hearing d n v).rep = d.rep from rfl, e]
  simp

/-- A line after which the driver still waits. -/
theorem ask_line {u v : List Byte} {q' : St Snd Rep} {I' : Bool → Int → CcExt → Prop} (h : Holds (c.mid u) t0 T q I d)
    (hl : IsLine (u ++ v)) (hv : v ≠ []) (hw : q'.wait ≠ none ∨ q'.rep ≠ .okReply)
    (hp : ∀ g, Holds (c.mid []) t0 T q I g → LineDone g (u ++ v) → (parseLine p g).2 = false ∧ Holds (c.mid []) t0 T q' I' (parseLine p g).1) :
    Holds (c.mid []) t0 T q' I' (step p (hearing d n v) (.run true)) := by
  obtain ⟨g, h1, h2, h3, e⟩ := ask_heard p hr hn h hl hv
  obtain ⟨p1, p2⟩ := hp g h1 h2
  rw [e, p1]
  simp only [Bool.false_eq_true, if_false]
  rw [proceed_wait p2.1 hw]; exact p2

/-- An answer after which the driver still waits. -/
theorem ask_beat (hm : c.part = []) {a : Await} {q' : St Snd Rep} {I' : Bool → Int → CcExt → Prop} (hs : q.snd ≠ .receiving) (hs' : q'.snd ≠ .receiving)
    (hw : q.wait ≠ none ∨ q.rep ≠ .okReply) (hw' : q'.wait ≠ none ∨ q'.rep ≠ .okReply)
    (hi : ∀ g l, Holds c t0 T q I g → LineDone g l → a.idle l → parseLine p g = (g, false))
    (hg : ∀ g l, Holds c t0 T q I g → LineDone g l → IsLine l → a.good l → (parseLine p g).2 = false ∧ Holds c t0 T q' I' (parseLine p g).1)
    (h : Holds c t0 T q I d) {b : Beat} (hab : Answers a b) : Holds c t0 T q' I' (exec (step p) d (b.ops n)) := by
  have e0 := Conf.mid_nil hm
  refine exec_beat (P := fun u => Holds (c.mid u) t0 T q I) step_irq
    (fun u d hd => ask_idle p hd hw hs)
    (fun u v w d hd hl hw0 _ => ask_more p hr hn hd hw hs hl hw0)
    (fun u v d hd hl hv hx => ask_line p hr hn hd hl hv hw fun g h1 h2 => by
      rw [e0] at h1 ⊢
      rw [hi g _ h1 h2 hx]
      exact ⟨rfl, h1⟩)
    (fun u v d hd hl hv hx => ?_) (fun d hd => ask_idle p hd hw' hs') (e0.symm ▸ h) hab
  rw [← e0]
  exact ask_line p hr hn hd hl hv hw' fun g h1 h2 => by
    rw [e0] at h1 ⊢
    exact hg g _ h1 h2 hl hx

end

/-! ### The place -/

/-- Not connected or connected, waiting for `w` and the reply `r`; the signal strength is asked for or not. -/
abbrev place (on : Bool) (r : Rep) (w : Option (List Byte)) (k : Bool) : St Snd Rep :=
  ⟨if on then .connected else .notConnected, r, w, if on then .connected else .notConnected, false, false, k⟩

/-- Waiting for an answer. -/
abbrev asking (on : Bool) : MacQ → St Snd Rep
  | .mac _ => place on .reqMac (some b!"OK") false
  | _ => place on .csq (some b!"OK") true

/-- Meanwhile. -/
structure AskExt (x : CcExt) : Prop where
  size : x.mac.cells.length = macMax

abbrev kept (p : Platform) : MacQ → CcExt → Prop
  | .mac _, _ => True
  | _, x => ChatExt p x

/-- What the application gets. -/
def got : MacQ → Int → CcExt → Prop
  | .signal v, r, _ => r = v
  | .none, _, _ => False
  | .mac s, _, x => cstr x.mac.cells = s.take 23 ∧ x.mac.get 0 ≠ 0

/-- Not connected or connected. -/
def Here (on : Bool) (p : Platform) (c : Conf) (t0 : List Ev) (T : List (List Byte)) (d : D) : Prop :=
  (if on then Up p c t0 T d else Down p c t0 T d) ∧ d.ext.mac.cells.length = macMax

/-- Lines that have a meaning. -/
abbrev bad (on : Bool) : List (List Byte) := if on then busyCC else []

theorem checkState_place {on : Bool} {r : Rep} {w : Option (List Byte)} {k : Bool} (hg : d.snd = (place on r w k).snd) (hl : LineDone d l)
    (h : ∀ x ∈ bad on, ¬ x <+: l) : checkState p d = d := by
  cases on with
  | false => exact checkState_low (by rw [hg]; show ¬ Snd.connected.idx ≤ Snd.notConnected.idx; decide)
  | true => exact checkState_clear hl (clear_mono h (by simp [busyCC]))

theorem isError_place {on : Bool} {r : Rep} {w : Option (List Byte)} {k : Bool} (hg : d.snd = (place on r w k).snd) (hl : LineDone d l)
    (he : ¬ b!"ERROR" <+: l) (h : ∀ x ∈ bad on, ¬ x <+: l) : isError d = false := by
  cases on with
  | false => exact isError_low (by rw [hg]; show ¬ Snd.connected.idx ≤ Snd.notConnected.idx; decide) hl he
  | true =>
    refine isError_clear hl fun x hx => ?_
    simp only [List.mem_cons, List.not_mem_nil, or_false] at hx
    rcases hx with rfl | rfl
    · exact he
    · exact h _ (by simp [busyCC])

theorem Here.holds {on : Bool} (h : Here on p c t0 T d) :
    Holds c t0 T (place on .okReply none false) (fun i _ x => (on = true → i = true) ∧ ChatExt p x ∧ x.mac.cells.length = macMax) d ∧
      d.ser.txFree = c.tx := by
  obtain ⟨h, hs⟩ := h
  cases on with
  | false => exact ⟨⟨h.1.with trivial, by simp, h.1.ext, hs⟩, h.2⟩
  | true => exact ⟨⟨h.1.with trivial, fun _ => h.2.1, h.1.ext, hs⟩, h.2.2⟩

/-- Nothing is asked any more. -/
theorem act_here {on : Bool} (hI : c.Idle) {K : Int → CcExt → Prop}
    (h : Holds c t0 T (place on .okReply none false) (fun i r x => (on = true → i = true) ∧ ChatExt p x ∧ x.mac.cells.length = macMax ∧ K r x) d)
    (hf : d.ser.txFree = c.tx) :
    Here on p c t0 T (act d) ∧ K (act d).rssi (act d).ext := by
  have h1 := h.1.with h.2.2.1
  obtain ⟨hx, hy⟩ := act_ext d
  refine ⟨⟨?_, by rw [hx]; exact h.2.2.2.1⟩, by rw [hx, hy]; exact h.2.2.2.2⟩
  cases on with
  | false =>
    have := act_rest h1
    exact ⟨this.1, by rw [this.2]; exact hf⟩
  | true =>
    have := act_stay hI h1 (h.2.1 rfl)
    exact ⟨this.1, this.2.1, by rw [this.2.2]; exact hf⟩

theorem here_idle {on : Bool} (ht : 20 ≤ c.tx) (hI : c.Idle) {K : Int → CcExt → Prop} (h : Here on p c t0 T d ∧ K d.rssi d.ext) :
    Here on p c t0 T (step p d (.run true)) ∧ K (step p d (.run true)).rssi (step p d (.run true)).ext := by
  obtain ⟨h1, h2⟩ := h.1.holds
  have h3 := h1.1.with h1.2.2.1
  have e : step p d (.run true) = act d := by
    show run p d true = _
    rw [run_calm h3 (by cases on <;> simp), proceed_act h3 rfl rfl (by omega)]
  rw [e]
  exact act_here hI ⟨h1.1, h1.2.1, h1.2.2.1, h1.2.2.2, h.2⟩ h2

section
variable (p) (hr : 60 ≤ c.rx) (ht : 20 ≤ c.tx) (hn : c.tx ≤ n) (hI : c.Idle) (hm : c.part = [])
include hr ht hn hI hm

/-- OK: the value is there. -/
theorem ask_ok {on : Bool} {K : Int → CcExt → Prop}
    (h : Holds c t0 T (place on .okReply (some b!"OK") false)
      (fun i r x => (on = true → i = true) ∧ ChatExt p x ∧ x.mac.cells.length = macMax ∧ K r x) d)
    {b : Beat} (hab : Answers (await b!"OK" (b!"ERROR" :: bad on)) b) :
    Here on p c t0 T (exec (step p) d (b.ops n)) ∧
      K (exec (step p) d (b.ops n)).rssi (exec (step p) d (b.ops n)).ext := by
  have e0 := Conf.mid_nil hm
  have hs : (place on .okReply (some b!"OK") false).snd ≠ .receiving := by cases on <;> simp
  refine exec_beat (P := fun u => Holds (c.mid u) t0 T (place on .okReply (some b!"OK") false) _)
    (Q := fun d => Here on p c t0 T d ∧ K d.rssi d.ext) step_irq
    (fun u d hd => ask_idle p hd (.inl (by simp)) hs)
    (fun u v w d hd hl hw0 _ => ask_more p hr hn hd (.inl (by simp)) hs hl hw0)
    (fun u v d hd hl hv hx => ask_line p hr hn hd hl hv (.inl (by simp)) fun g h1 h2 => ?_)
    (fun u v d hd hl hv hx => ?_) (fun d hd => here_idle ht hI hd) (e0.symm ▸ h) hab
  · have hb : ∀ y ∈ bad on, ¬ y <+: u ++ v := fun y hy => hx y (by simp [hy])
    rw [parseLine_eq (isError_place h1.1.snd h2 (hx _ (by simp)) hb)
      (parseWait_clear h2 h1.1.wait (by decide) (hx _ (by simp))) (parseReply_ok h1.1.rep), checkState_place h1.1.snd h2 hb]
    exact ⟨rfl, h1⟩
  · obtain ⟨g, h1, h2, h3, e⟩ := ask_heard p hr hn hd hl hv
    rw [e0] at h1
    have ho : b!"OK" <+: u ++ v := hx
    have hc : ∀ x ∈ bad on, ¬ x <+: u ++ v := by
      intro x hx'
      cases on with
      | false => simp at hx'
      | true =>
        simp only [bad, busyCC, if_true, List.mem_cons, List.not_mem_nil, or_false] at hx'
        rcases hx' with rfl | rfl | rfl <;> exact not_prefix_of ho (by decide) (by decide)
    have hg2 : Holds c t0 T (place on .okReply none false)
        (fun i r x => (on = true → i = true) ∧ ChatExt p x ∧ x.mac.cells.length = macMax ∧ K r x) ({ g with wait := none } : D) :=
      ⟨(h1.1.set ({ g with wait := none } : D) rfl rfl rfl h1.1.calm.lineRead).at (by
        show (⟨g.snd, g.rep, none, g.cs, g.disconnectPending, g.connectPending, decide (g.rssi = int16Max)⟩ : St _ _) = _
        simp [h1.1.snd, h1.1.rep, h1.1.cs, h1.1.disc, h1.1.conn, h1.1.ask]), h1.2⟩
    rw [e, parseLine_eq (isError_place h1.1.snd h2 (not_prefix_of ho (by decide) (by decide)) hc)
      (parseWait_good h2 h1.1.wait (by decide) ho) (parseReply_ok h1.1.rep),
      checkState_place (d := ({ g with wait := none } : D)) h1.1.snd ⟨h2.text, h2.zero, h2.fill⟩ hc]
    simp only [Bool.false_eq_true, if_false]
    rw [proceed_act (hg2.1.with hg2.2.2.1) rfl rfl (by show 20 ≤ g.ser.txFree; omega)]
    exact act_here hI hg2 h3

omit hr hn hI hm in
/-- The question for the signal strength is passed on. -/
theorem signal_sent {on : Bool} (h : Here on p c t0 T d) (k : Nat) :
    Holds c t0 (T ++ [b!"AT+CSQ\r\n"]) (place on .csq (some b!"OK") true)
      (fun i _ x => (on = true → i = true) ∧ AskExt x ∧ ChatExt p x)
      (exec (step p) d (.requestRSSI :: List.replicate (k + 1) (.run true))) := by
  obtain ⟨⟨h1, h4, h5, h6⟩, hf⟩ := h.holds
  have hs : ∀ r w k, (place on r w k).snd ≠ .receiving := fun _ _ _ => by cases on <;> simp
  have h2 : Chat p c t0 T (place on .okReply none true) (step p d .requestRSSI) :=
    h1.value int16Max d.ext d.rep h5 (by rw [h1.rep]; rfl)
  have f2 : (step p d .requestRSSI).ser.txFree = c.tx := hf
  have i2 : (on = true → (step p d .requestRSSI).ipConnected = true) ∧ AskExt (step p d .requestRSSI).ext ∧
      ChatExt p (step p d .requestRSSI).ext := ⟨h4, ⟨h6⟩, h5⟩
  show Holds _ _ _ _ _ (exec (step p) (step p (step p d .requestRSSI) (.run true)) (List.replicate k (.run true)))
  generalize step p d .requestRSSI = d1 at h2 f2 i2 ⊢
  refine exec_runs (fun d hd => ask_idle p hd (.inl (by simp)) (hs _ _ _)) ?_ k
  have e : step p d1 (.run true) = { d1.sendCommand b!"AT+CSQ" with rep := .csq, wait := some okStr } := by
    show run p d1 true = _
    rw [run_calm h2 (hs _ _ _)]
    unfold proceed
    rw [h2.wait, h2.rep, if_neg (by simp), h2.calm.serSpace, if_neg (by omega), h2.calm.askSpace]
    unfold sendNext
    rw [if_pos ⟨by rw [h2.ask], h2.calm.lineRead⟩]
  rw [e]
  have hx : b!"AT+CSQ\r\n".length ≤ d1.ser.txFree := by simp; omega
  have h2 := h2.with (E' := fun _ => True) trivial
  refine ⟨?_, i2⟩
  said h2 hx (Wrote.command h2.calm.ser _ (by decide))

omit hr hn hI hm in
/-- The question is passed on. -/
theorem ask_sent {on : Bool} (q : MacQ) (hq : q.Fine p) (h : Here on p c t0 T d) (k : Nat) :
    Holds c t0 (T ++ [q.sayCC]) (asking on q)
      (fun i _ x => (on = true → i = true) ∧ AskExt x ∧ kept p q x)
      (exec (step p) d (q.op :: List.replicate (k + 1) (.run true))) := by
  cases q with
  | signal m => exact signal_sent p ht h k
  | none => exact signal_sent p ht h k
  | mac s =>
    obtain ⟨⟨h1, h4, h5, h6⟩, hf⟩ := h.holds
    have hs : ∀ r w k, (place on r w k).snd ≠ .receiving := fun _ _ _ => by cases on <;> simp
    obtain ⟨r1, r2, r3⟩ := mac_requested (m := d.ext.mac) (by rw [h6]; decide)
    have h2 : Talk c (fun _ => True) t0 T (place on .okReply none false) (step p d .requestMac) :=
      h1.value d.rssi (step p d .requestMac).ext d.rep trivial (by simp [h1.rep, h1.ask])
    have f2 : (step p d .requestMac).ser.txFree = c.tx := hf
    have i2 : (on = true → (step p d .requestMac).ipConnected = true) ∧ AskExt (step p d .requestMac).ext ∧
        (step p d .requestMac).ext.mac.get 0 = 0 ∧ (step p d .requestMac).ext.mac.get 1 = 255 :=
      ⟨h4, ⟨r1.trans h6⟩, r2, r3⟩
    show Holds _ _ _ _ _ (exec (step p) (step p (step p d .requestMac) (.run true)) (List.replicate k (.run true)))
    generalize step p d .requestMac = d1 at h2 f2 i2 ⊢
    refine exec_runs (fun d hd => ask_idle p hd (.inl (by simp)) (hs _ _ _)) ?_ k
    obtain ⟨j1, j2, j3, j4⟩ := i2
    have e : step p d1 (.run true) = { d1.sendCommand b!"AT+CIPSTAMAC" with
        ext := { mac := d1.ext.mac.store 1 0 }, rep := .reqMac, wait := some okStr } := by
      show run p d1 true = _
      rw [run_calm h2 (hs _ _ _)]
      unfold proceed
      rw [h2.wait, h2.rep, if_neg (by simp), h2.calm.serSpace, if_neg (by omega), h2.calm.askSpace]
      unfold sendNext
      rw [if_neg (by simp [h2.ask]), if_pos ⟨by unfold Espressif.macMarked; rw [hq.1, j4]; rfl, j3, h2.calm.lineRead⟩]
    rw [e]
    have h3 : Talk c (fun _ => True) t0 T (place on .okReply none false) ({ d1 with ext := { mac := d1.ext.mac.store 1 0 } } : D) :=
      h2.value d1.rssi _ d1.rep trivial (by simp [h2.rep, h2.ask])
    have hx : b!"AT+CIPSTAMAC\r\n".length ≤ ({ d1 with ext := { mac := d1.ext.mac.store 1 0 } } : D).ser.txFree := by
      show _ ≤ d1.ser.txFree
      simp; omega
    refine ⟨?_, j1, ⟨by simp [Mem.store, j2.size]⟩, trivial⟩
    show Talk _ _ _ _ _ ({ ({ d1 with ext := { mac := d1.ext.mac.store 1 0 } } : D).sendCommand b!"AT+CIPSTAMAC" with
        rep := .reqMac, wait := some okStr } : D)
    said h3 hx (Wrote.command h3.calm.ser _ (by decide))

omit ht hI in
/-- The line with the value. -/
theorem ask_value {on : Bool} (q : MacQ) (hq : q.Fine p)
    (h : Holds c t0 T (asking on q)
      (fun i _ x => (on = true → i = true) ∧ AskExt x ∧ kept p q x) d)
    {b : Beat} {value ok : Await} (hv : askCC (bad on) q = answer value ok) (hab : Answers value b) :
    Holds c t0 T (place on .okReply (some b!"OK") false)
      (fun i r x => (on = true → i = true) ∧ ChatExt p x ∧ x.mac.cells.length = macMax ∧ got q r x)
      (exec (step p) d (b.ops n)) := by
  have hs : ∀ r w k, (place on r w k).snd ≠ .receiving := fun _ _ _ => by cases on <;> simp
  have hbad : ∀ {x l : List Byte}, x <+: l → (∀ y ∈ b!"OK" :: b!"ERROR" :: busyCC, ¬ x <+: y ∧ ¬ y <+: x) →
      Clear (b!"OK" :: b!"ERROR" :: bad on) l := by
    intro x l hx hy y hy'
    refine not_prefix_of hx (hy y ?_).1 (hy y ?_).2 <;>
    · cases on with
      | false => simp only [bad, Bool.false_eq_true, if_false] at hy'; exact List.mem_append_left _ hy'
      | true => exact hy'
  have idle : ∀ {r : Rep} {k : Bool} {I : Bool → Int → CcExt → Prop} {g : D} {l : List Byte},
      Holds c t0 T (place on r (some b!"OK") k) I g → LineDone g l → Clear (b!"OK" :: b!"ERROR" :: bad on) l →
      parseReply p g = g → parseLine p g = (g, false) := by
    intro r k I g l hg hl hc hp
    have hb : ∀ y ∈ bad on, ¬ y <+: l := fun y hy => hc y (by simp [hy])
    rw [parseLine_eq (isError_place hg.1.snd hl (hc _ (by simp)) hb)
      (parseWait_clear hl hg.1.wait (by decide) (hc _ (by simp))) hp, checkState_place hg.1.snd hl hb]
  have good : ∀ {r : Rep} {k : Bool} {I : Bool → Int → CcExt → Prop} {g a : D} {l : List Byte},
      Holds c t0 T (place on r (some b!"OK") k) I g → LineDone g l → Clear (b!"OK" :: b!"ERROR" :: bad on) l →
      parseReply p g = a → a.snd = g.snd → LineDone a l → parseLine p g = (a, false) := by
    intro r k I g a l hg hl hc hp ha hla
    have hb : ∀ y ∈ bad on, ¬ y <+: l := fun y hy => hc y (by simp [hy])
    rw [parseLine_eq (isError_place hg.1.snd hl (hc _ (by simp)) hb)
      (parseWait_clear hl hg.1.wait (by decide) (hc _ (by simp))) hp, checkState_place (ha.trans hg.1.snd) hla hb]
  cases q with
  | signal v =>
    obtain rfl : value = _ := (Exchange.mk.inj (List.cons.inj hv).1).1.symm
    refine ask_beat p hr hn hm (hs _ _ _) (hs _ _ _) (.inl (by simp)) (.inl (by simp)) ?_ ?_ h hab
    · rintro g l hg hl ⟨hc, h1, h2⟩
      refine idle hg hl hc ?_
      unfold parseReply parseCsq
      rw [hg.1.rep]
      dsimp only
      rw [hl.has_false (by decide) h2]
      simp [parseMac_no hl h1]
    · rintro g l hg hl hli hv
      have hx : b!"+CSQ:" <+: l := by
        obtain ⟨rest, e, -⟩ := hv
        exact ⟨signed v ++ rest, by rw [e]; simp⟩
      have hp : parseReply p g = ({ g with rssi := v, rep := .okReply } : D) := by
        have e1 := csq_value (p := p) hl hv hq
        unfold parseReply
        rw [hg.1.rep]
        dsimp only
        rw [e1]
        exact parseMac_no (d := ({ g with rssi := v, rep := .okReply } : D)) ⟨hl.text, hl.zero, hl.fill⟩ (not_prefix_of hx (by decide) (by decide))
      rw [good hg hl (hbad hx (by decide)) hp rfl ⟨hl.text, hl.zero, hl.fill⟩]
      refine ⟨rfl, hg.1.value v g.ext .okReply trivial ?_, hg.2.1, hg.2.2.2, hg.2.2.1.size, rfl⟩
      have : v < 32767 := hq.2
      have : decide (v = int16Max) = false := decide_eq_false (by unfold int16Max; omega)
      rw [this]
  | none =>
    obtain rfl : value = _ := (Exchange.mk.inj (List.cons.inj hv).1).1.symm
    refine ask_beat p hr hn hm (hs _ _ _) (hs _ _ _) (.inl (by simp)) (.inl (by simp)) ?_ ?_ h hab
    · rintro g l hg hl ⟨hc, h1, h2⟩
      refine idle hg hl hc ?_
      unfold parseReply parseCsq
      rw [hg.1.rep]
      dsimp only
      rw [hl.has_false (by decide) h2]
      simp [parseMac_no hl h1]
    · rintro g l hg hl hli hv
      exact False.elim hv
  | mac s =>
    obtain rfl : value = _ := (Exchange.mk.inj (List.cons.inj hv).1).1.symm
    refine ask_beat p hr hn hm (hs _ _ _) (hs _ _ _) (.inl (by simp)) (.inl (by simp)) ?_ ?_ h hab
    · rintro g l hg hl ⟨hc, h1, -⟩
      refine idle hg hl hc ?_
      unfold parseReply
      rw [hg.1.rep]
      exact parseMac_no hl h1
    · rintro g l hg hl hli hv
      have hx : b!"+CIPSTAMAC:\"" <+: l := by
        obtain ⟨rest, e⟩ := hv
        exact ⟨s ++ 34 :: rest, by rw [e]; simp⟩
      obtain ⟨m1, m2, m3⟩ := mac_value hl hli hv hq hg.2.2.1.size hg.1.calm.line.len
      have hp : parseReply p g = ({ g with
          ext := { mac := SimDev.copyUntil 34 macMax macMax (g.line.drop 12) 0 g.ext.mac }, rep := .okReply } : D) := by
        unfold parseReply parseMac
        rw [hg.1.rep]
        dsimp only
        rw [hl.has_true (by decide) hx, if_pos rfl]
      rw [good hg hl (hbad hx (by decide)) hp rfl ⟨hl.text, hl.zero, hl.fill⟩]
      exact ⟨rfl, hg.1.value g.rssi _ .okReply trivial (by simp [hg.1.ask]), hg.2.1, ⟨fun x => m3 x.2⟩, m1, m2, m3⟩

/-- A question. -/
theorem query_ok {on : Bool} {i : Query MacQ} (hf : i.what.Fine p)
    (hb : Dialogue (askCC (bad on) i.what) i.beats) (h : Here on p c t0 T d) :
    Here on p c t0 (T ++ [i.what.sayCC]) (exec (step p) d (i.ops MacQ.op n)) ∧
      got i.what (exec (step p) d (i.ops MacQ.op n)).rssi (exec (step p) d (i.ops MacQ.op n)).ext := by
  unfold Query.ops
  rw [exec_append]
  exact exec_answer (P3 := fun d => Here on p c t0 (T ++ [i.what.sayCC]) d ∧ got i.what d.rssi d.ext)
    hb (fun d b hd ha => ask_value p hr hn hm i.what hf hd rfl ha)
    (fun d b hd ha => ask_ok p hr ht hn hI hm hd ha) (ask_sent p ht i.what hf h i.runs)

theorem inquiry_ok {on : Bool} {is : List (Query MacQ)}
    (hi : ∀ i ∈ is, i.what.Fine p ∧ Dialogue (askCC (bad on) i.what) i.beats) (h : Here on p c t0 T d) :
    Here on p c t0 (T ++ is.map fun i => i.what.sayCC) (exec (step p) d (inquiry MacQ.op n is)) := by
  induction is generalizing d T with
  | nil => simpa [inquiry, exec] using h
  | cons i is ih =>
    show Here _ _ _ _ _ (exec (step p) d (i.ops MacQ.op n ++ inquiry MacQ.op n is))
    rw [exec_append]
    have := ih (fun j hj => hi j (by simp [hj])) (query_ok p hr ht hn hI hm (hi i (by simp)).1 (hi i (by simp)).2 h).1
    simpa using this

end

/-- The application gets the value. -/
theorem Here.answered {on : Bool} {q : MacQ} (h : Here on p c t0 T d) (hg : got q d.rssi d.ext) : q.AnsweredCC d := by
  cases q with
  | signal m => exact hg
  | none => exact hg
  | mac s =>
    have hw : d.wait = none := h.holds.1.1.wait
    show getMacString d = _
    unfold getMacString
    rw [if_pos ⟨hw, hg.2⟩, hg.1]

end CC1352P7
end Verif
