import Verif.Lemmas.Asking
import Verif.Lemmas.ChatEsp
import Verif.Lemmas.Iccid

/-! Questions to an Espressif module. -/

namespace Verif

open Dev Spec

theorem copyUntil_len (stop : Byte) (max : Nat) : ∀ (fuel : Nat) (src : List Byte) (k : Nat) (m : Mem),
    (SimDev.copyUntil stop max fuel src k m).cells.length = m.cells.length := by
  intro fuel
  induction fuel with
  | zero => intro src k m; simp [SimDev.copyUntil, Mem.store]
  | succ n ih =>
    intro src k m
    unfold SimDev.copyUntil
    split
    · rw [ih]; simp [Mem.store]
    · simp [Mem.store]

theorem two_cells {m : Mem} (h : 2 ≤ m.cells.length) : ∃ a b r, m.cells = a :: b :: r := by
  match e : m.cells with
  | [] => rw [e] at h; simp at h
  | [_] => rw [e] at h; simp at h
  | a :: b :: r => exact ⟨a, b, r, rfl⟩

/-- A question for the address is pending. -/
theorem mac_requested {m : Mem} (h : 2 ≤ m.cells.length) :
    let i := (m.store 0 0).store 1 255
    i.cells.length = m.cells.length ∧ i.get 0 = 0 ∧ i.get 1 = 255 := by
  obtain ⟨x, y, r, e⟩ := two_cells h
  refine ⟨by simp [Mem.store], ?_, ?_⟩ <;> simp [Mem.store, Mem.get, e]

namespace Espressif

variable {p : Platform} {c : Conf} {w : Option Wifi} {t0 : List Ev} {T : List (List Byte)} {q : St Snd Rep}
  {d g : D} {n : Nat} {l : List Byte} {I : Bool → Int → EspExt → Prop}

theorem act_ext (d : D) : (act d).ext = d.ext ∧ (act d).rssi = d.rssi := by
  unfold act
  split <;> (try unfold Dev.handleConnect) <;> (try unfold actCwjap) <;> (try unfold actCipstart) <;>
    (try unfold actConnected) <;> (try unfold actCiprecvdata) <;> (try unfold sendCiprcvdata) <;> (try unfold actReceiving) <;>
    (try unfold Dev.handleDisconnect) <;> (try dsimp only) <;> (repeat' split) <;> simp_all

/-- The size of the buffer for the address. -/
def MacLen (d : D) : Prop := d.ext.mac.cells.length = macMax

theorem macLen_calls : Calls MacLen where
  io _ _ _ _ _ h := h
  isOpen _ _ h := h
  conn _ h _ _ := h
  disc0 _ h _ := h
  disc _ h _ := h
  write0 _ h _ := h
  write _ _ h _ := h
  read _ _ h := h
  rssi _ h := h
  userTx _ _ _ _ h := h
  userRx _ _ _ _ h := h
  host _ _ _ _ h := h

theorem macLen_reply (p : Platform) {d : D} (h : MacLen d) : MacLen (parseReply p d) := by
  unfold MacLen at h ⊢
  unfold parseReply
  split <;> (try dsimp only) <;> (repeat' split) <;> simp_all [copyUntil_len]

theorem macLen_sections (p : Platform) : Sections p MacLen where
  fail _ h _ := h
  reset _ h _ := h
  line d s m l r _ h _ _ _ _ _ _ := by
    have h0 : MacLen (d.gotLine s m r l) := h
    have hf : MacLen (parseSendFail (d.gotLine s m r l)) := by
      unfold parseSendFail; split <;> exact h0
    have hw : MacLen (parseWait (parseSendFail (d.gotLine s m r l))) := by
      unfold parseWait; split <;> exact hf
    unfold parseLine
    split
    · exact h
    · have := macLen_reply p hw
      unfold checkState
      dsimp only
      (repeat' split) <;> exact this
  drop _ h _ _ _ := h
  csq _ h _ _ _ _ _ _ := h
  mac d h _ _ _ _ _ _ := by
    have h : d.ext.mac.cells.length = macMax := h
    simp [MacLen, Mem.store, h]
  act d h _ _ _ _ := by unfold MacLen; rw [(act_ext d).1]; exact h

theorem macLen_exec (p : Platform) {d : D} (hv : Inv d) (h : MacLen d) (ops : List Op) : MacLen (exec (step p) d ops) := by
  refine (exec_inv (step := step p) (I := fun d => Inv d ∧ MacLen d) (ok := fun _ => True)
    (fun d op _ h => ⟨step_inv p op h.1, ?_⟩) ⟨hv, h⟩ ops fun _ _ => trivial).2
  obtain ⟨hv, h⟩ := h
  cases op with
  | run ok => exact (macLen_sections p).run macLen_calls.toPort hv.line h ok
  | connect =>
    simp only [step]
    unfold connect
    dsimp only
    by_cases hu : d.ext.ssid = .uninit ∨ d.ext.passwd = .uninit
    · rw [if_pos hu]
      split
      · exact h
      · exact macLen_calls.ipConnect (d := ({ d with ub := true } : D)) h
    · rw [if_neg hu]
      split
      · exact h
      · exact macLen_calls.ipConnect h
  | resetStates => exact h
  | setSSID => exact h
  | setPassword => exact h
  | requestMac =>
    have h : d.ext.mac.cells.length = macMax := h
    simp [step, requestMac, MacLen, Mem.store, h]
  | _ => simp only [step]; exact macLen_calls.common h _

/-! ### The lines -/

theorem afterCommas_step (k : Nat) {s t : List Byte} (h : (44 : Byte) ∉ s) (h0 : (0 : Byte) ∉ s) :
    afterCommas (k + 1) (s ++ 44 :: t) = afterCommas k t := by
  induction s with
  | nil => rfl
  | cons a s ih =>
    simp only [List.mem_cons, not_or] at h h0
    show (if a = 0 then none else if a = 44 then afterCommas k (s ++ 44 :: t) else afterCommas (k + 1) (s ++ 44 :: t)) = _
    rw [if_neg (Ne.symm h0.1), if_neg (Ne.symm h.1), ih h.2 h0.2]

theorem line_nonzero (hi : IsLine l) : (0 : Byte) ∉ l := by
  obtain ⟨t, rfl, _, _, h3⟩ := hi.text
  intro hx
  simp only [List.mem_append, List.mem_singleton] at hx
  rcases hx with hx | hx
  · exact h3 hx
  · simp [nl] at hx

/-- Behind the third comma. -/
theorem cwjap_value {v : Int} (hl : LineDone d l) (hi : IsLine l) (hv : (MacQ.signal v).valueEsp l) (hf : (MacQ.signal v).Fine p) :
    ∃ t, afterCommas 3 (d.line.drop 7) = some t ∧ toInt16 (strtol p.long64 t) = v := by
  obtain ⟨name, addr, channel, rest, e, h1, h2, h3, h4⟩ := hv
  have h0 := line_nonzero hi
  rw [e] at h0
  simp only [List.mem_append, not_or] at h0
  obtain ⟨m, hm⟩ := hl.drop b!"+CWJAP:" (name ++ 44 :: (addr ++ 44 :: (channel ++ 44 :: (signed v ++ rest)))) (by rw [e]; simp)
  have hm : d.line.drop 7 = name ++ 44 :: (addr ++ 44 :: (channel ++ 44 :: (signed v ++ (rest ++ 0 :: m)))) := by
    have := hm
    simp only [List.append_assoc, List.cons_append] at this
    exact this
  refine ⟨signed v ++ (rest ++ 0 :: m), ?_, ?_⟩
  · rw [hm, afterCommas_step 2 h1 (by simp_all), afterCommas_step 1 h2 (by simp_all), afterCommas_step 0 h3 (by simp_all)]
    simp [afterCommas]
  have hv := hf.1
  have hv2 := hf.2
  rw [strtol_signed _ (by omega) (by omega) _ (ends_zero h4).noDigit, toInt16_id hv (by omega)]

/-- The address. -/
theorem mac_value {s : List Byte} (hl : LineDone d l) (hi : IsLine l) (hv : (MacQ.mac s).valueEsp l) (hf : (MacQ.mac s).Fine p)
    (hs : d.ext.mac.cells.length = macMax) (hlen : d.line.cells.length = lineMax + 1) :
    (SimDev.copyUntil 34 macMax macMax (d.line.drop 12) 0 d.ext.mac).cells.length = macMax ∧
    cstr (SimDev.copyUntil 34 macMax macMax (d.line.drop 12) 0 d.ext.mac).cells = s.take 17 ∧
    (SimDev.copyUntil 34 macMax macMax (d.line.drop 12) 0 d.ext.mac).get 0 ≠ 0 := by
  obtain ⟨rest, e⟩ := hv
  have h0 := line_nonzero hi
  rw [e] at h0
  simp only [List.mem_append, not_or] at h0
  obtain ⟨m, hm⟩ := hl.drop b!"+CIPSTAMAC:\"" (s ++ 34 :: rest) (by rw [e]; simp)
  have hm : d.line.drop 12 = s ++ 34 :: (rest ++ 0 :: m) := by
    have := hm
    simp only [List.append_assoc, List.cons_append] at this
    exact this
  have hx : (d.line.drop 12).length = lineMax + 1 - 12 := by
    show (d.line.cells.drop 12).length = _
    rw [List.length_drop, hlen]
  rw [hm] at hx ⊢
  exact copyUntil_text (max := macMax) hs (by decide) (by rw [hx]; decide) hf.2.2 (by simp_all) hf.2.1 (by decide)

/-! ### Reading -/

/-- Lines the driver reads to their end. -/
def Reads (t : ConnType) (r : Rep) (l : List Byte) : Prop := r = .rssi ∨ r = .reqMac ∨ (r = .okReply ∧ Spec.plain t l)

theorem reads_on {t : ConnType} {r : Rep} (h : Reads t r l) (m : Mem) (k : Nat) {x : Byte} (hx : x ∈ l) (h1 : x ≠ nl) (h2 : x ≠ gt)
    (h3 : k < lineMax) : lineStop t r m k x = none := by
  unfold lineStop
  rw [if_neg, if_neg]
  · rcases h with rfl | rfl | ⟨rfl, -⟩ <;> simp
  · rintro (y | y | y | y)
    · exact h1 y
    · exact h2 y
    · rcases h with rfl | rfl | ⟨rfl, z | z⟩
      · exact y.2.2.2.1 rfl
      · exact y.2.2.1 rfl
      · exact y.1 z
      · exact z (y.2.2.2.2 ▸ hx)
    · omega

/-- While waiting, nothing happens. -/
theorem ask_idle (p : Platform) (h : Holds c t0 T q I d) (hw : q.wait ≠ none ∨ q.rep ≠ .okReply) (hs : q.snd ≠ .receiving) :
    Holds c t0 T q I (step p d (.run true)) := by
  show Holds _ _ _ _ _ (run p d true)
  rw [run_calm h.1 hs, proceed_wait h.1 hw]; exact h

section
variable (p) (hr : 60 ≤ c.rx) (hn : c.tx ≤ n)
include hr hn

/-- A piece of a line. -/
theorem ask_more {u v w : List Byte} (h : Holds (c.mid u) t0 T q I d) (hw : q.wait ≠ none ∨ q.rep ≠ .okReply)
    (hs : q.snd ≠ .receiving) (hl : IsLine (u ++ v ++ w)) (hw0 : w ≠ []) (hp : Reads c.typ q.rep (u ++ v ++ w)) :
    Holds (c.mid (u ++ v)) t0 T q I (step p (hearing d n v) (.run true)) := by
  obtain ⟨g, e, h1, h3, h4⟩ := h.1.more (v := v) hn hl hw0 hr (lineStop d.typ d.rep)
    (fun m k x hx h1 h2 h3 => by
      rw [h.1.typ, h.1.rep]
      exact reads_on hp m k (List.mem_append_left _ hx) h1 h2 h3)
  have hg : Holds (c.mid (u ++ v)) t0 T q I g := by
    obtain ⟨e1, e2, e3⟩ := fillLine_same e
    refine ⟨h1, ?_⟩
    rw [e1, e2, e3]; exact h.2
  have : run p (hearing d n v) true = work p (hearing d n v) := by
    unfold run
    rw [if_neg (by simp [h.1.calm.isOpen]), if_neg (by simp [h.1.calm.reset])]
  show Holds _ _ _ _ _ (run p _ true)
  rw [this]
  unfold work fillLineBuffer
  rw [show (hearing d n v).rep = d.rep from rfl, show (hearing d n v).typ = d.typ from rfl, e]
  show Holds _ _ _ _ _ (proceed p (flushIfDisconnecting g))
  unfold flushIfDisconnecting
  rw [if_neg (fun x => hs (h1.snd ▸ x.2)), proceed_wait h1 hw]
  exact hg

/-- A line. -/
theorem ask_heard {u v : List Byte} (h : Holds (c.mid u) t0 T q I d) (hl : IsLine (u ++ v)) (hv : v ≠ []) (hp : Reads c.typ q.rep (u ++ v)) :
    ∃ g, Holds (c.mid []) t0 T q I g ∧ LineDone g (u ++ v) ∧ g.ser.txFree = c.tx ∧
      step p (hearing d n v) (.run true) = if (parseLine p g).2 then (parseLine p g).1 else proceed p (parseLine p g).1 := by
  obtain ⟨g, e, h1, h2, h3, h4⟩ := h.1.heard hn hl hv hr (lineStop d.typ d.rep)
    (fun m k x hx h1 h2 h3 => by
      rw [h.1.typ, h.1.rep]
      exact reads_on hp m k hx h1 h2 h3) (fun m k => by unfold lineStop; rw [if_pos (.inl rfl)])
  obtain ⟨e1, e2, e3⟩ := fillLine_same e
  refine ⟨g, ⟨h1, by rw [e1, e2, e3]; exact h.2⟩, h2, h3, ?_⟩
  have : run p (hearing d n v) true = work p (hearing d n v) := by
    unfold run
    rw [if_neg (by simp [h.1.calm.isOpen]), if_neg (by simp [h.1.calm.reset])]
  show run p _ true = _
  rw [this]
  unfold work fillLineBuffer
  rw [show (hearing d n v).rep = d.rep from rfl, show (hearing d n v).typ = d.typ from rfl, e]
  simp

/-- A line after which the driver still waits. -/
theorem ask_line {u v : List Byte} {q' : St Snd Rep} {I' : Bool → Int → EspExt → Prop} (h : Holds (c.mid u) t0 T q I d)
    (hl : IsLine (u ++ v)) (hv : v ≠ []) (hp : Reads c.typ q.rep (u ++ v)) (hw : q'.wait ≠ none ∨ q'.rep ≠ .okReply)
    (hp : ∀ g, Holds (c.mid []) t0 T q I g → LineDone g (u ++ v) → (parseLine p g).2 = false ∧ Holds (c.mid []) t0 T q' I' (parseLine p g).1) :
    Holds (c.mid []) t0 T q' I' (step p (hearing d n v) (.run true)) := by
  obtain ⟨g, h1, h2, h3, e⟩ := ask_heard p hr hn h hl hv ‹_›
  obtain ⟨p1, p2⟩ := hp g h1 h2
  rw [e, p1]
  simp only [Bool.false_eq_true, if_false]
  rw [proceed_wait p2.1 hw]; exact p2

/-- An answer after which the driver still waits. -/
theorem ask_beat (hm : c.part = []) {a : Await} {q' : St Snd Rep} {I' : Bool → Int → EspExt → Prop} (hs : q.snd ≠ .receiving) (hs' : q'.snd ≠ .receiving)
    (hw : q.wait ≠ none ∨ q.rep ≠ .okReply) (hw' : q'.wait ≠ none ∨ q'.rep ≠ .okReply) (hp : q.rep = .rssi ∨ q.rep = .reqMac)
    (hi : ∀ g l, Holds c t0 T q I g → LineDone g l → a.idle l → parseLine p g = (g, false))
    (hg : ∀ g l, Holds c t0 T q I g → LineDone g l → IsLine l → a.good l → (parseLine p g).2 = false ∧ Holds c t0 T q' I' (parseLine p g).1)
    (h : Holds c t0 T q I d) {b : Beat} (hab : Answers a b) : Holds c t0 T q' I' (exec (step p) d (b.ops n)) := by
  have e0 := Conf.mid_nil hm
  have hp : ∀ l, Reads c.typ q.rep l := fun l => hp.elim Or.inl fun x => Or.inr (Or.inl x)
  refine exec_beat (P := fun u => Holds (c.mid u) t0 T q I) step_irq
    (fun u d hd => ask_idle p hd hw hs)
    (fun u v w d hd hl hw0 _ => ask_more p hr hn hd hw hs hl hw0 (hp _))
    (fun u v d hd hl hv hx => ask_line p hr hn hd hl hv (hp _) hw fun g h1 h2 => by
      rw [e0] at h1 ⊢
      rw [hi g _ h1 h2 hx]
      exact ⟨rfl, h1⟩)
    (fun u v d hd hl hv hx => ?_) (fun d hd => ask_idle p hd hw' hs') (e0.symm ▸ h) hab
  rw [← e0]
  exact ask_line p hr hn hd hl hv (hp _) hw' fun g h1 h2 => by
    rw [e0] at h1 ⊢
    exact hg g _ h1 h2 hl hx

end

/-! ### The place -/

/-- Not connected or connected, waiting for `w` and the reply `r`; the signal strength is asked for or not. -/
abbrev place (on : Bool) (r : Rep) (w : Option (List Byte)) (k : Bool) : St Snd Rep :=
  ⟨if on then .connected else .notConnected, r, w, if on then .connected else .notConnected, false, false, k⟩

/-- Waiting for an answer. -/
abbrev asking (on : Bool) : MacQ → St Snd Rep
  | .mac _ => place on .reqMac (some b!"OK") false
  | _ => place on .rssi (some b!"OK") true

/-- Meanwhile. -/
structure AskExt (w : Option Wifi) (x : EspExt) : Prop where
  wifi : ∀ v, w = some v → x.ssid = .str v.ssid ∧ x.passwd = .str v.passwd
  size : x.mac.cells.length = macMax

abbrev kept (p : Platform) (w : Option Wifi) : MacQ → EspExt → Prop
  | .mac _, _ => True
  | _, x => ChatExt p w x

/-- What the application gets. -/
def got : MacQ → Int → EspExt → Prop
  | .signal v, r, _ => r = v
  | .none, r, _ => r = 99
  | .mac s, _, x => cstr x.mac.cells = s.take 17 ∧ x.mac.get 0 ≠ 0

/-- Not connected or connected. -/
def Here (on : Bool) (p : Platform) (c : Conf) (w : Option Wifi) (t0 : List Ev) (T : List (List Byte)) (d : D) : Prop :=
  (if on then Up p c w t0 T d else Down p c w t0 T d) ∧ d.ext.mac.cells.length = macMax

/-- Lines that have a meaning. -/
abbrev bad (on : Bool) : List (List Byte) := if on then busyEsp else []

theorem checkState_place {on : Bool} {r : Rep} {w : Option (List Byte)} {k : Bool} (hg : d.snd = (place on r w k).snd) (hl : LineDone d l)
    (h : ∀ x ∈ bad on, ¬ x <+: l) : checkState p d = d := by
  cases on with
  | false => exact checkState_low (by rw [hg]; show ¬ Snd.connected.idx ≤ Snd.notConnected.idx; decide)
  | true => exact checkState_clear hl (clear_mono h (by simp [busyEsp]))

theorem sendFail_place {on : Bool} {r : Rep} {w : Option (List Byte)} {k : Bool} (hg : d.snd = (place on r w k).snd) (hl : LineDone d l)
    (h : ∀ x ∈ bad on, ¬ x <+: l) : parseSendFail d = d := by
  cases on with
  | false => exact sendFail_not (by rw [hg]; show Snd.notConnected ≠ Snd.connected; decide)
  | true => exact sendFail_clear hl (h _ (by simp [busyEsp]))

theorem Here.holds {on : Bool} (h : Here on p c w t0 T d) :
    Holds c t0 T (place on .okReply none false) (fun i _ x => (on = true → i = true) ∧ ChatExt p w x ∧ x.mac.cells.length = macMax) d ∧
      d.ser.txFree = c.tx := by
  obtain ⟨h, hs⟩ := h
  cases on with
  | false => exact ⟨⟨h.1.with trivial, by simp, h.1.ext, hs⟩, h.2⟩
  | true => exact ⟨⟨h.1.with trivial, fun _ => h.2.1, h.1.ext, hs⟩, h.2.2⟩

/-- Nothing is asked any more. -/
theorem act_here {on : Bool} (hI : c.Idle) {K : Int → EspExt → Prop}
    (h : Holds c t0 T (place on .okReply none false) (fun i r x => (on = true → i = true) ∧ ChatExt p w x ∧ x.mac.cells.length = macMax ∧ K r x) d)
    (hf : d.ser.txFree = c.tx) :
    Here on p c w t0 T (act d) ∧ K (act d).rssi (act d).ext := by
  have h1 := h.1.with h.2.2.1
  obtain ⟨hx, hy⟩ := act_ext d
  refine ⟨⟨?_, by rw [hx]; exact h.2.2.2.1⟩, by rw [hx, hy]; exact h.2.2.2.2⟩
  cases on with
  | false =>
    have := act_rest h1
    exact ⟨this.1, by rw [this.2]; exact hf⟩
  | true =>
    have := act_stay hI h1 (h.2.1 rfl)
    exact ⟨this.1, this.2.1, by rw [this.2.2]; exact hf⟩

theorem here_idle {on : Bool} (ht : 20 ≤ c.tx) (hI : c.Idle) {K : Int → EspExt → Prop} (h : Here on p c w t0 T d ∧ K d.rssi d.ext) :
    Here on p c w t0 T (step p d (.run true)) ∧ K (step p d (.run true)).rssi (step p d (.run true)).ext := by
  obtain ⟨h1, h2⟩ := h.1.holds
  have h3 := h1.1.with h1.2.2.1
  have e : step p d (.run true) = act d := by
    show run p d true = _
    rw [run_calm h3 (by cases on <;> simp), proceed_act h3 rfl rfl (by omega)]
  rw [e]
  exact act_here hI ⟨h1.1, h1.2.1, h1.2.2.1, h1.2.2.2, h.2⟩ h2

section
variable (p) (hr : 60 ≤ c.rx) (ht : 20 ≤ c.tx) (hn : c.tx ≤ n) (hI : c.Idle) (hm : c.part = [])
include hr ht hn hI hm

/-- OK: the value is there. -/
theorem ask_ok {on : Bool} {K : Int → EspExt → Prop} {pl : List Byte → Prop} (hpl : ∀ l, pl l → Spec.plain c.typ l)
    (h : Holds c t0 T (place on .okReply (some b!"OK") false)
      (fun i r x => (on = true → i = true) ∧ ChatExt p w x ∧ x.mac.cells.length = macMax ∧ K r x) d)
    {b : Beat} (hab : Answers ⟨fun l => b!"OK" <+: l ∧ pl l, fun l => Clear (b!"OK" :: errorsEsp ++ bad on) l ∧ pl l⟩ b) :
    Here on p c w t0 T (exec (step p) d (b.ops n)) ∧
      K (exec (step p) d (b.ops n)).rssi (exec (step p) d (b.ops n)).ext := by
  have e0 := Conf.mid_nil hm
  have hs : (place on .okReply (some b!"OK") false).snd ≠ .receiving := by cases on <;> simp
  refine exec_beat (a := ⟨fun l => b!"OK" <+: l ∧ pl l, fun l => Clear (b!"OK" :: errorsEsp ++ bad on) l ∧ pl l⟩)
    (P := fun u => Holds (c.mid u) t0 T (place on .okReply (some b!"OK") false) _)
    (Q := fun d => Here on p c w t0 T d ∧ K d.rssi d.ext) step_irq
    (fun u d hd => ask_idle p hd (.inl (by simp)) hs)
    (fun u v w d hd hl hw0 hx => ask_more p hr hn hd (.inl (by simp)) hs hl hw0
      (.inr (.inr ⟨rfl, hpl _ (hx.elim (fun x => x.2) fun x => x.2)⟩)))
    (fun u v d hd hl hv hx => ask_line p hr hn hd hl hv (.inr (.inr ⟨rfl, hpl _ hx.2⟩)) (.inl (by simp)) fun g h1 h2 => ?_)
    (fun u v d hd hl hv hx => ?_) (fun d hd => here_idle ht hI hd) (e0.symm ▸ h) hab
  · have hx := hx.1
    have hb : ∀ y ∈ bad on, ¬ y <+: u ++ v := fun y hy => hx y (by simp [hy])
    rw [parseLine_eq (isError_clear h2 fun y hy => hx y (by simp [hy])) (sendFail_place h1.1.snd h2 hb)
      (parseWait_clear h2 h1.1.wait (by decide) (hx _ (by simp))) (parseReply_ok h1.1.rep), checkState_place h1.1.snd h2 hb]
    exact ⟨rfl, h1⟩
  · obtain ⟨g, h1, h2, h3, e⟩ := ask_heard p hr hn hd hl hv (.inr (.inr ⟨rfl, hpl _ hx.2⟩))
    rw [e0] at h1
    have ho : b!"OK" <+: u ++ v := hx.1
    have hc : ∀ x ∈ bad on, ¬ x <+: u ++ v := by
      intro x hx'
      cases on with
      | false => simp at hx'
      | true =>
        simp only [bad, busyEsp, if_true, List.mem_cons, List.not_mem_nil, or_false] at hx'
        rcases hx' with rfl | rfl | rfl | rfl <;> exact not_prefix_of ho (by decide) (by decide)
    have hg2 : Holds c t0 T (place on .okReply none false)
        (fun i r x => (on = true → i = true) ∧ ChatExt p w x ∧ x.mac.cells.length = macMax ∧ K r x) ({ g with wait := none } : D) :=
      ⟨(h1.1.set ({ g with wait := none } : D) rfl rfl rfl h1.1.calm.lineRead).at (by
        show (⟨g.snd, g.rep, none, g.cs, g.disconnectPending, g.connectPending, decide (g.rssi = int16Max)⟩ : St _ _) = _
        simp [h1.1.snd, h1.1.rep, h1.1.cs, h1.1.disc, h1.1.conn, h1.1.ask]), h1.2⟩
    rw [e, parseLine_eq (isError_clear h2 (clear_of ho (by decide))) (sendFail_place h1.1.snd h2 hc)
      (parseWait_good h2 h1.1.wait (by decide) ho) (parseReply_ok h1.1.rep),
      checkState_place (d := ({ g with wait := none } : D)) h1.1.snd ⟨h2.text, h2.zero, h2.fill⟩ hc]
    simp only [Bool.false_eq_true, if_false]
    rw [proceed_act (hg2.1.with hg2.2.2.1) rfl rfl (by show 20 ≤ g.ser.txFree; omega)]
    exact act_here hI hg2 h3

omit hr hn hI hm in
/-- The question for the signal strength is passed on. -/
theorem signal_sent {on : Bool} (h : Here on p c w t0 T d) (k : Nat) :
    Holds c t0 (T ++ [b!"AT+CWJAP?\r\n"]) (place on .rssi (some b!"OK") true)
      (fun i _ x => (on = true → i = true) ∧ AskExt w x ∧ ChatExt p w x)
      (exec (step p) d (.requestRSSI :: List.replicate (k + 1) (.run true))) := by
  obtain ⟨⟨h1, h4, h5, h6⟩, hf⟩ := h.holds
  have hs : ∀ r w k, (place on r w k).snd ≠ .receiving := fun _ _ _ => by cases on <;> simp
  have h2 : Chat p c w t0 T (place on .okReply none true) (step p d .requestRSSI) :=
    h1.value int16Max d.ext d.rep h5 (by rw [h1.rep]; rfl)
  have f2 : (step p d .requestRSSI).ser.txFree = c.tx := hf
  have i2 : (on = true → (step p d .requestRSSI).ipConnected = true) ∧ AskExt w (step p d .requestRSSI).ext ∧
      ChatExt p w (step p d .requestRSSI).ext := ⟨h4, ⟨h5.wifi, h6⟩, h5⟩
  show Holds _ _ _ _ _ (exec (step p) (step p (step p d .requestRSSI) (.run true)) (List.replicate k (.run true)))
  generalize step p d .requestRSSI = d1 at h2 f2 i2 ⊢
  refine exec_runs (fun d hd => ask_idle p hd (.inl (by simp)) (hs _ _ _)) ?_ k
  have e : step p d1 (.run true) = { d1.sendCommand b!"AT+CWJAP?" with rep := .rssi, wait := some okStr } := by
    show run p d1 true = _
    rw [run_calm h2 (hs _ _ _)]
    unfold proceed
    rw [h2.wait, h2.rep, if_neg (by simp), h2.calm.serSpace, if_neg (by omega), h2.calm.askSpace]
    unfold sendNext
    rw [if_pos ⟨by rw [h2.ask], h2.calm.lineRead⟩]
  rw [e]
  have hx : b!"AT+CWJAP?\r\n".length ≤ d1.ser.txFree := by simp; omega
  have h2 := h2.with (E' := fun _ => True) trivial
  refine ⟨?_, i2⟩
  said h2 hx (Wrote.command h2.calm.ser _ (by decide))

omit hr hn hI hm in
/-- The question is passed on. -/
theorem ask_sent {on : Bool} (q : MacQ) (hq : q.Fine p) (h : Here on p c w t0 T d) (k : Nat) :
    Holds c t0 (T ++ [q.sayEsp]) (asking on q)
      (fun i _ x => (on = true → i = true) ∧ AskExt w x ∧ kept p w q x)
      (exec (step p) d (q.op :: List.replicate (k + 1) (.run true))) := by
  cases q with
  | signal m => exact signal_sent p ht h k
  | none => exact signal_sent p ht h k
  | mac s =>
    obtain ⟨⟨h1, h4, h5, h6⟩, hf⟩ := h.holds
    have hs : ∀ r w k, (place on r w k).snd ≠ .receiving := fun _ _ _ => by cases on <;> simp
    obtain ⟨r1, r2, r3⟩ := mac_requested (m := d.ext.mac) (by rw [h6]; decide)
    have h2 : Talk c (fun _ => True) t0 T (place on .okReply none false) (step p d .requestMac) :=
      h1.value d.rssi (step p d .requestMac).ext d.rep trivial (by simp [h1.rep, h1.ask])
    have f2 : (step p d .requestMac).ser.txFree = c.tx := hf
    have i2 : (on = true → (step p d .requestMac).ipConnected = true) ∧ AskExt w (step p d .requestMac).ext ∧
        (step p d .requestMac).ext.mac.get 0 = 0 ∧ (step p d .requestMac).ext.mac.get 1 = 255 :=
      ⟨h4, ⟨h5.wifi, r1.trans h6⟩, r2, r3⟩
    show Holds _ _ _ _ _ (exec (step p) (step p (step p d .requestMac) (.run true)) (List.replicate k (.run true)))
    generalize step p d .requestMac = d1 at h2 f2 i2 ⊢
    refine exec_runs (fun d hd => ask_idle p hd (.inl (by simp)) (hs _ _ _)) ?_ k
    obtain ⟨j1, j2, j3, j4⟩ := i2
    have e : step p d1 (.run true) = { d1.sendCommand b!"AT+CIPSTAMAC?" with
        ext := { d1.ext with mac := d1.ext.mac.store 1 0 }, rep := .reqMac, wait := some okStr } := by
      show run p d1 true = _
      rw [run_calm h2 (hs _ _ _)]
      unfold proceed
      rw [h2.wait, h2.rep, if_neg (by simp), h2.calm.serSpace, if_neg (by omega), h2.calm.askSpace]
      unfold sendNext
      rw [if_neg (by simp [h2.ask]), if_pos ⟨by unfold macMarked; rw [hq.1, j4]; rfl, j3, h2.calm.lineRead⟩]
    rw [e]
    have h3 : Talk c (fun _ => True) t0 T (place on .okReply none false) ({ d1 with ext := { d1.ext with mac := d1.ext.mac.store 1 0 } } : D) :=
      h2.value d1.rssi _ d1.rep trivial (by simp [h2.rep, h2.ask])
    have hx : b!"AT+CIPSTAMAC?\r\n".length ≤ ({ d1 with ext := { d1.ext with mac := d1.ext.mac.store 1 0 } } : D).ser.txFree := by
      show _ ≤ d1.ser.txFree
      simp; omega
    refine ⟨?_, j1, ⟨j2.wifi, by simp [Mem.store, j2.size]⟩, trivial⟩
    show Talk _ _ _ _ _ ({ ({ d1 with ext := { d1.ext with mac := d1.ext.mac.store 1 0 } } : D).sendCommand b!"AT+CIPSTAMAC?" with
        rep := .reqMac, wait := some okStr } : D)
    said h3 hx (Wrote.command h3.calm.ser _ (by decide))

omit ht hI in
/-- The line with the value. -/
theorem ask_value {on : Bool} {pl : List Byte → Prop} (q : MacQ) (hq : q.Fine p)
    (h : Holds c t0 T (asking on q)
      (fun i _ x => (on = true → i = true) ∧ AskExt w x ∧ kept p w q x) d)
    {b : Beat} {value ok : Await} (hv : askEsp pl (bad on) q = answer value ok) (hab : Answers value b) :
    Holds c t0 T (place on .okReply (some b!"OK") false)
      (fun i r x => (on = true → i = true) ∧ ChatExt p w x ∧ x.mac.cells.length = macMax ∧ got q r x)
      (exec (step p) d (b.ops n)) := by
  have hs : ∀ r w k, (place on r w k).snd ≠ .receiving := fun _ _ _ => by cases on <;> simp
  have hbad : ∀ {x l : List Byte}, x <+: l → (∀ y ∈ b!"OK" :: errorsEsp ++ busyEsp, ¬ x <+: y ∧ ¬ y <+: x) →
      Clear (b!"OK" :: errorsEsp ++ bad on) l := by
    intro x l hx hy y hy'
    refine not_prefix_of hx (hy y ?_).1 (hy y ?_).2 <;>
    · cases on with
      | false => simp only [bad, Bool.false_eq_true, if_false, List.append_nil] at hy'; exact List.mem_append_left _ hy'
      | true => exact hy'
  have idle : ∀ {r : Rep} {k : Bool} {I : Bool → Int → EspExt → Prop} {g : D} {l : List Byte},
      Holds c t0 T (place on r (some b!"OK") k) I g → LineDone g l → Clear (b!"OK" :: errorsEsp ++ bad on) l →
      parseReply p g = g → parseLine p g = (g, false) := by
    intro r k I g l hg hl hc hp
    have hb : ∀ y ∈ bad on, ¬ y <+: l := fun y hy => hc y (by simp [hy])
    rw [parseLine_eq (isError_clear hl fun y hy => hc y (by simp [hy])) (sendFail_place hg.1.snd hl hb)
      (parseWait_clear hl hg.1.wait (by decide) (hc _ (by simp))) hp, checkState_place hg.1.snd hl hb]
  have good : ∀ {r : Rep} {k : Bool} {I : Bool → Int → EspExt → Prop} {g a : D} {l : List Byte},
      Holds c t0 T (place on r (some b!"OK") k) I g → LineDone g l → Clear (b!"OK" :: errorsEsp ++ bad on) l →
      parseReply p g = a → a.snd = g.snd → LineDone a l → parseLine p g = (a, false) := by
    intro r k I g a l hg hl hc hp ha hla
    have hb : ∀ y ∈ bad on, ¬ y <+: l := fun y hy => hc y (by simp [hy])
    rw [parseLine_eq (isError_clear hl fun y hy => hc y (by simp [hy])) (sendFail_place hg.1.snd hl hb)
      (parseWait_clear hl hg.1.wait (by decide) (hc _ (by simp))) hp, checkState_place (ha.trans hg.1.snd) hla hb]
  have rssiNo : ∀ {g : D} {l : List Byte}, g.rep = .rssi → LineDone g l → ¬ b!"+CWJAP:" <+: l → ¬ b!"No AP" <+: l → parseReply p g = g := by
    intro g l hr hl h1 h2
    unfold parseReply
    rw [hr]
    dsimp only
    rw [hl.has_false (by decide) h1, hl.has_false (by decide) h2]
    simp
  cases q with
  | signal v =>
    obtain rfl : value = _ := (Exchange.mk.inj (List.cons.inj hv).1).1.symm
    refine ask_beat p hr hn hm (hs _ _ _) (hs _ _ _) (.inl (by simp)) (.inl (by simp)) (.inl rfl) ?_ ?_ h hab
    · rintro g l hg hl ⟨hc, h1, h2⟩
      exact idle hg hl hc (rssiNo hg.1.rep hl h1 h2)
    · rintro g l hg hl hli hv
      have hx : b!"+CWJAP:" <+: l := by
        obtain ⟨name, addr, channel, rest, e, -⟩ := hv
        exact ⟨name ++ 44 :: (addr ++ 44 :: (channel ++ 44 :: (signed v ++ rest))), by rw [e]; simp⟩
      have hp : parseReply p g = ({ g with rssi := v, rep := .okReply } : D) := by
        obtain ⟨t, e1, e2⟩ := cwjap_value (p := p) hl hli hv hq
        unfold parseReply
        rw [hg.1.rep]
        dsimp only
        rw [hl.has_true (by decide) hx, if_pos rfl, e1]
        dsimp only
        rw [e2]
      rw [good hg hl (hbad hx (by decide)) hp rfl ⟨hl.text, hl.zero, hl.fill⟩]
      refine ⟨rfl, hg.1.value v g.ext .okReply trivial ?_, hg.2.1, hg.2.2.2, hg.2.2.1.size, rfl⟩
      have : v < 32767 := hq.2
      have : decide (v = int16Max) = false := decide_eq_false (by unfold int16Max; omega)
      rw [this]
  | none =>
    obtain rfl : value = _ := (Exchange.mk.inj (List.cons.inj hv).1).1.symm
    refine ask_beat p hr hn hm (hs _ _ _) (hs _ _ _) (.inl (by simp)) (.inl (by simp)) (.inl rfl) ?_ ?_ h hab
    · rintro g l hg hl ⟨hc, h1, h2⟩
      exact idle hg hl hc (rssiNo hg.1.rep hl h1 h2)
    · rintro g l hg hl hli (hx : b!"No AP" <+: l)
      have hp : parseReply p g = ({ g with rssi := 99, rep := .okReply } : D) := by
        unfold parseReply
        rw [hg.1.rep]
        dsimp only
        rw [hl.has_false (by decide) (not_prefix_of hx (by decide) (by decide)), hl.has_true (by decide) hx]
        simp
      rw [good hg hl (hbad hx (by decide)) hp rfl ⟨hl.text, hl.zero, hl.fill⟩]
      exact ⟨rfl, hg.1.value 99 g.ext .okReply trivial (by simp [int16Max]), hg.2.1, hg.2.2.2, hg.2.2.1.size, rfl⟩
  | mac s =>
    obtain rfl : value = _ := (Exchange.mk.inj (List.cons.inj hv).1).1.symm
    refine ask_beat p hr hn hm (hs _ _ _) (hs _ _ _) (.inl (by simp)) (.inl (by simp)) (.inr rfl) ?_ ?_ h hab
    · rintro g l hg hl ⟨hc, h1⟩
      refine idle hg hl hc ?_
      unfold parseReply
      rw [hg.1.rep]
      dsimp only
      rw [hl.has_false (by decide) h1]
      simp
    · rintro g l hg hl hli hv
      have hx : b!"+CIPSTAMAC:\"" <+: l := by
        obtain ⟨rest, e⟩ := hv
        exact ⟨s ++ 34 :: rest, by rw [e]; simp⟩
      obtain ⟨m1, m2, m3⟩ := mac_value hl hli hv hq hg.2.2.1.size hg.1.calm.line.len
      have hp : parseReply p g = ({ g with
          ext := { g.ext with mac := SimDev.copyUntil 34 macMax macMax (g.line.drop 12) 0 g.ext.mac }, rep := .okReply } : D) := by
        unfold parseReply
        rw [hg.1.rep]
        dsimp only
        rw [hl.has_true (by decide) hx, if_pos rfl]
      rw [good hg hl (hbad hx (by decide)) hp rfl ⟨hl.text, hl.zero, hl.fill⟩]
      exact ⟨rfl, hg.1.value g.rssi _ .okReply trivial (by simp [hg.1.ask]), hg.2.1, ⟨fun x => m3 x.2, hg.2.2.1.wifi⟩, m1, m2, m3⟩

/-- A question. -/
theorem query_ok {on : Bool} {pl : List Byte → Prop} (hpl : ∀ l, pl l → Spec.plain c.typ l) {i : Query MacQ} (hf : i.what.Fine p)
    (hb : Dialogue (askEsp pl (bad on) i.what) i.beats) (h : Here on p c w t0 T d) :
    Here on p c w t0 (T ++ [i.what.sayEsp]) (exec (step p) d (i.ops MacQ.op n)) ∧
      got i.what (exec (step p) d (i.ops MacQ.op n)).rssi (exec (step p) d (i.ops MacQ.op n)).ext := by
  unfold Query.ops
  rw [exec_append]
  exact exec_answer (P3 := fun d => Here on p c w t0 (T ++ [i.what.sayEsp]) d ∧ got i.what d.rssi d.ext)
    hb (fun d b hd ha => ask_value (pl := pl) p hr hn hm i.what hf hd rfl ha)
    (fun d b hd ha => ask_ok p hr ht hn hI hm hpl hd ha) (ask_sent p ht i.what hf h i.runs)

theorem inquiry_ok {on : Bool} {pl : List Byte → Prop} (hpl : ∀ l, pl l → Spec.plain c.typ l) {is : List (Query MacQ)}
    (hi : ∀ i ∈ is, i.what.Fine p ∧ Dialogue (askEsp pl (bad on) i.what) i.beats) (h : Here on p c w t0 T d) :
    Here on p c w t0 (T ++ is.map fun i => i.what.sayEsp) (exec (step p) d (inquiry MacQ.op n is)) := by
  induction is generalizing d T with
  | nil => simpa [inquiry, exec] using h
  | cons i is ih =>
    show Here _ _ _ _ _ _ (exec (step p) d (i.ops MacQ.op n ++ inquiry MacQ.op n is))
    rw [exec_append]
    have := ih (fun j hj => hi j (by simp [hj])) (query_ok p hr ht hn hI hm hpl (hi i (by simp)).1 (hi i (by simp)).2 h).1
    simpa using this

end

/-- The application gets the value. -/
theorem Here.answered {on : Bool} {q : MacQ} (h : Here on p c w t0 T d) (hg : got q d.rssi d.ext) : q.AnsweredEsp d := by
  cases q with
  | signal m => exact hg
  | none => exact hg
  | mac s =>
    have hw : d.wait = none := h.holds.1.1.wait
    show getMacString d = _
    unfold getMacString
    rw [if_pos ⟨hw, hg.2⟩, hg.1]

end Espressif
end Verif
