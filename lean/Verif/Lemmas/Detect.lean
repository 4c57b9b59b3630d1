import Verif.Spec.Detect
import Verif.Lemmas.Chat
import Verif.Lemmas.CString

/-! Detection of a modem in a dialogue. -/

namespace Verif

open Spec

namespace Ser

variable {s : Ser} {rq : List Byte} {rx tx : Nat}

theorem Calm.canReadLine (h : Calm s rq rx tx) : s.canReadLine = (s, decide (rq.count nl % 65536 > 0)) :=
  Prod.ext h.noop (by
    show decide (s.sync.rx.lines > 0) = _
    rw [h.sync, h.q.rx.lines])

theorem Calm.flushed (h : Calm s rq rx tx) :
    Calm s.flushReceiveBuffers [] rx tx ∧ s.flushReceiveBuffers.sent = s.sent ∧ s.flushReceiveBuffers.txFree = s.txFree := by
  have e : s.flushReceiveBuffers = { s with rx := s.rx.flush, accepted := [], taken := [] } := by
    show ({ s.sync.disable with rx := s.sync.rx.flush, accepted := [], taken := [] } : Ser).enable = _
    rw [h.sync]
    have := h.irq
    cases s; simp only at this; subst this; rfl
  rw [e]
  exact ⟨⟨h.sched, h.irq, ⟨LineBuf.rep_flush h.q.rx.ring.len h.q.rx.ring.ok, rfl⟩, h.out, h.pos, h.rxs, h.txs⟩, rfl, rfl⟩

theorem Calm.readLineLoop {t : List Byte} (h : Calm s (t ++ [nl]) rx tx) (ht : nl ∉ t) (size fuel : Nat) (acc : List Byte) (c : Byte)
    (hc : c ≠ nl) (hf : t.length + 1 < fuel) (hs : acc.length + t.length + 1 ≤ size - 1) :
    (Ser.readLineLoop size fuel s c acc).2 = acc.reverse ++ t ++ [nl] ∧ Calm (Ser.readLineLoop size fuel s c acc).1 [] rx tx ∧
      (Ser.readLineLoop size fuel s c acc).1.tx = s.tx ∧ (Ser.readLineLoop size fuel s c acc).1.sent = s.sent := by
  induction t generalizing s fuel acc c with
  | nil =>
    obtain ⟨fuel, rfl⟩ : ∃ k, fuel = k + 2 := ⟨fuel - 2, by simp at hf; omega⟩
    simp only [List.length_nil] at hs
    obtain ⟨h1, h2, h3⟩ := Calm.read1 (c := nl) (rq := []) h
    have h4 : s.read1.1.sent = s.sent := by
      show s.sync.sent = s.sent
      rw [h.sync]
    unfold Ser.readLineLoop
    rw [h.bytesAvailable]
    simp only [List.nil_append, List.length_cons, List.length_nil, ne_eq, Nat.add_eq_zero_iff, Nat.one_ne_zero, and_false, not_false_eq_true,
      hc, and_self, if_true, h2]
    unfold Ser.readLineLoop
    rw [h1.bytesAvailable, if_pos (by omega)]
    simp [h1, h3, h4]
  | cons b t ih =>
    obtain ⟨fuel, rfl⟩ : ∃ k, fuel = k + 1 := ⟨fuel - 1, by simp at hf; omega⟩
    simp only [List.length_cons] at hs hf
    simp only [List.mem_cons, not_or] at ht
    obtain ⟨h1, h2, h3⟩ := Calm.read1 (c := b) (rq := t ++ [nl]) h
    have h4 : s.read1.1.sent = s.sent := by
      show s.sync.sent = s.sent
      rw [h.sync]
    unfold Ser.readLineLoop
    rw [h.bytesAvailable]
    simp only [List.cons_append, List.length_cons, ne_eq, Nat.add_eq_zero_iff, Nat.one_ne_zero, and_false, not_false_eq_true, hc, and_self,
      if_true, h2]
    rw [if_pos (by omega)]
    obtain ⟨a, b', c', d⟩ := ih h1 ht.2 fuel (b :: acc) b (fun e => ht.1 e.symm) (by omega) (by simp; omega)
    exact ⟨by rw [a]; simp, b', c'.trans h3, d.trans h4⟩

theorem Calm.readLine {t : List Byte} (h : Calm s (t ++ [nl]) rx tx) (ht : nl ∉ t) (size : Nat) (hs : t.length + 2 ≤ size) :
    ∃ s', s.readLine size = (s', t ++ [nl] ++ [0], t.length + 1) ∧ Calm s' [] rx tx ∧ s'.tx = s.tx ∧ s'.sent = s.sent := by
  have e1 : s.rx.ring.bytesAvailable = t.length + 1 := by rw [h.q.rx.ring.bytesAvailable]; simp
  have e2 : s.pending = 0 := by unfold pending; rw [h.sched]; rfl
  obtain ⟨a, b, c, d⟩ := h.readLineLoop ht size (s.rx.ring.bytesAvailable + s.pending + 1) [] 0 (by decide) (by omega) (by simp; omega)
  refine ⟨_, ?_, b, c, d⟩
  unfold Ser.readLine
  rw [if_neg (by omega)]
  simp only [List.reverse_nil, List.nil_append] at a
  simp only [a]
  simp

end Ser

namespace ModemDetect

/-- `strncmp` with a literal. -/
theorem strncmp_iff (lit l : List Byte) (hz : (0 : Byte) ∉ lit) : strncmpEq lit (l ++ [0]) lit.length = true ↔ lit <+: l := by
  induction lit generalizing l with
  | nil => simp [strncmpEq]
  | cons c lit ih =>
    simp only [List.mem_cons, not_or] at hz
    cases l with
    | nil => simpa [strncmpEq] using fun e => absurd e.symm hz.1
    | cons b l =>
      have := ih l hz.2
      simp only [List.length_cons, strncmpEq, List.headD_cons, List.cons_append, List.tail_cons, Bool.and_eq_true, beq_iff_eq, Bool.or_eq_true,
        this, List.cons_prefix_cons]
      simp [show c ≠ 0 from fun e => hz.1 e.symm]

/-! ### Lines in pieces, for any kind of state -/

section
variable {σ : Type} {step : σ → Op → σ} {n : Nat}

/-- Bytes arrive. -/
def heard (step : σ → Op → σ) (n : Nat) (d : σ) (l : List Byte) : σ :=
  step (step (step d (.irq (List.replicate n ⟨none, true⟩))) (.irq (l.map fun c => ⟨some c, false⟩))) (.run true)

theorem go_hear (d : σ) (l : List Byte) (k : Nat) :
    (hear n l k).foldl step d = (List.replicate k (.run true)).foldl step (heard step n d l) := rfl

theorem go_runs {P : σ → Prop} (h : ∀ d, P d → P (step d (.run true))) {d : σ} (hd : P d) (k : Nat) :
    P ((List.replicate k (.run true)).foldl step d) := by
  induction k generalizing d with
  | zero => exact hd
  | succ k ih => exact ih (h d hd)

theorem go_head {P : List Byte → σ → Prop} (h : ∀ u d, P u d → P u (step d (.run true)))
    (hm : ∀ u v w d, P u d → IsLine (u ++ v ++ w) → w ≠ [] → P (u ++ v) (heard step n d v))
    {hs : List (List Byte × Nat)} {u w : List Byte} {d : σ} (hd : P u d) (hw : w ≠ []) (hl : IsLine (u ++ hs.flatMap (·.1) ++ w)) :
    P (u ++ hs.flatMap (·.1)) ((hs.flatMap fun x => hear n x.1 x.2).foldl step d) := by
  induction hs generalizing u d with
  | nil => rw [List.flatMap_nil, List.append_nil]; exact hd
  | cons x hs ih =>
    rw [List.flatMap_cons] at hl ⊢
    rw [List.flatMap_cons, List.foldl_append, go_hear]
    have h1 := hm u x.1 (hs.flatMap (·.1) ++ w) d hd (by simpa using hl) (by simp [hw])
    rw [← List.append_assoc] at hl ⊢
    exact ih (go_runs (h _) h1 x.2) hl

theorem go_said {P : List Byte → σ → Prop} {Q : σ → Prop} {ok : List Byte → Prop} (h : ∀ u d, P u d → P u (step d (.run true)))
    (hm : ∀ u v w d, P u d → IsLine (u ++ v ++ w) → w ≠ [] → P (u ++ v) (heard step n d v))
    (hg : ∀ u v d, P u d → IsLine (u ++ v) → v ≠ [] → ok (u ++ v) → Q (heard step n d v))
    (hq : ∀ d, Q d → Q (step d (.run true))) {d : σ} (hd : P [] d) {x : Spoken} (hx : x.Is ok) :
    Q ((x.ops n).foldl step d) := by
  obtain ⟨h1, h2, h3⟩ := hx
  unfold Spoken.ops
  rw [List.foldl_append, go_hear]
  exact go_runs hq (hg _ _ _ (go_head h hm (hs := x.head) hd h1 h2) h2 h1 h3) x.runs

theorem go_hearAll {P : List Byte → σ → Prop} {idle : List Byte → Prop} (h : ∀ u d, P u d → P u (step d (.run true)))
    (hm : ∀ u v w d, P u d → IsLine (u ++ v ++ w) → w ≠ [] → P (u ++ v) (heard step n d v))
    (hn : ∀ u v d, P u d → IsLine (u ++ v) → v ≠ [] → idle (u ++ v) → P [] (heard step n d v))
    {d : σ} (hd : P [] d) {xs : List Spoken} (hx : ∀ x ∈ xs, x.Is idle) : P [] ((hearAll n xs).foldl step d) := by
  induction xs generalizing d with
  | nil => exact hd
  | cons x xs ih =>
    show P [] ((x.ops n ++ hearAll n xs).foldl step d)
    rw [List.foldl_append]
    exact ih (go_said h hm hn (h _) hd (hx x List.mem_cons_self)) fun y hy => hx y (List.mem_cons_of_mem _ hy)

theorem go_beat {P : List Byte → σ → Prop} {Q : σ → Prop} {a : Await} (h : ∀ u d, P u d → P u (step d (.run true)))
    (hm : ∀ u v w d, P u d → IsLine (u ++ v ++ w) → w ≠ [] → P (u ++ v) (heard step n d v))
    (hn : ∀ u v d, P u d → IsLine (u ++ v) → v ≠ [] → a.idle (u ++ v) → P [] (heard step n d v))
    (hg : ∀ u v d, P u d → IsLine (u ++ v) → v ≠ [] → a.good (u ++ v) → Q (heard step n d v))
    (hq : ∀ d, Q d → Q (step d (.run true))) {d : σ} (hd : P [] d) {b : Beat} (hb : Answers a b) : Q ((b.ops n).foldl step d) := by
  unfold Beat.ops
  rw [List.foldl_append]
  exact go_said h hm hg hq (go_hearAll h hm hn hd hb.noise) hb.answer

end

/-! ### The detector -/

/-- The detector waits; `u` is the part of the next line that has arrived; `T` was said. -/
structure Waits (rx tx : Nat) (det : Det) (st : Bool) (T : List (List Byte)) (u : List Byte) (m : MD) : Prop where
  modem : m.modem = none
  isOpen : m.isOpen = true
  det : m.det = det
  started : m.started = st
  ser : Ser.Calm m.ser u rx tx
  free : m.det ≠ .cgmmSent → m.det ≠ .gmrSent → m.ser.txFree = tx
  said : m.ser.sent = T.flatten
  cut : nl ∉ u

variable {rx tx n : Nat} {det : Det} {st : Bool} {T : List (List Byte)} {u v w : List Byte} {m : MD} (p : Platform)

/-- The interrupts of a piece of a line. -/
theorem Waits.arrive (h : Waits rx tx det st T u m) (hn : tx ≤ n) (hl : (u ++ v).length ≤ rx) :
    let s := (m.ser.transfers (List.replicate n ⟨none, true⟩)).transfers (v.map fun c => ⟨some c, false⟩)
    Ser.Calm s (u ++ v) rx tx ∧ s.txFree = tx ∧ s.sent = m.ser.sent := by
  intro s
  obtain ⟨a, b, c⟩ := h.ser.drain n
  obtain ⟨d, e, f⟩ := a.arrive v (by simpa using hl)
  refine ⟨d, ?_, f.trans b⟩
  rw [e]
  unfold Ser.txFree
  obtain ⟨tq, h1, _⟩ := h.ser.out
  have := h1.ring.le
  rw [c, a.txs, h1.ring.av]
  rw [h.ser.txs] at this
  omega

theorem heard_eq (h : Waits rx tx det st T u m) (v : List Byte) :
    heard (fun m op => step p m (via op)) n m v =
      step p { m with ser := (m.ser.transfers (List.replicate n ⟨none, true⟩)).transfers (v.map fun c => ⟨some c, false⟩) } (.run true) := by
  unfold heard
  have e : ∀ hs (m : MD), m.modem = none → step p m (.irq hs) = { m with ser := m.ser.transfers hs } := by
    intro hs m hm
    show (match m.modem with | none => _ | some d => _) = _
    rw [hm]
  show step p (step p (step p m (.irq _)) (.irq _)) (.run true) = _
  rw [e _ _ h.modem, e _ _ (by exact h.modem)]

/-- Detection states in which `run()` does nothing but read. -/
def Passive (det : Det) (st : Bool) : Prop := det ≠ .beginState ∧ (det = .noState → st = false)

theorem run_open (hm : m.modem = none) (ho : m.isOpen = true) : step p m (.run true) = readReply (query m) := by
  show run p m true = _
  unfold run
  rw [hm]
  simp only [ho, Bool.true_eq_false, if_false]

theorem query_none (hd : m.det = .noState) (hs : m.started = true) : query m = { m with det := .beginState } := by
  cases m; simp only at hd hs; subst hd hs; rfl

theorem query_begin (hd : m.det = .beginState) :
    query m = { send { m with ser := m.ser.flushReceiveBuffers, trace := m.trace ++ [.flush] } cgmm with det := .cgmmSent, delay := 10 } := by
  cases m; simp only at hd; subst hd; rfl

theorem run_passive (hm : m.modem = none) (ho : m.isOpen = true) (hd : m.det = det) (hs : m.started = st) (hp : Passive det st) :
    step p m (.run true) = readReply m := by
  show run p m true = _
  unfold run
  rw [hm]
  simp only [ho, Bool.true_eq_false, if_false]
  congr 1
  unfold query
  rw [hd]
  cases det <;> first | rfl | exact absurd rfl hp.1 | (simp only [hs, hp.2 rfl]; rfl)

/-- Without a complete line nothing is read. -/
theorem readReply_none (h : Ser.Calm m.ser u rx tx) (hu : nl ∉ u) : readReply m = m := by
  unfold readReply
  rw [h.canReadLine, List.count_eq_zero.mpr hu]
  rfl

theorem Waits.idle (h : Waits rx tx det st T u m) (hp : Passive det st) : Waits rx tx det st T u (step p m (.run true)) := by
  rw [run_passive p h.modem h.isOpen h.det h.started hp, readReply_none h.ser h.cut]
  exact h

theorem Waits.more (h : Waits rx tx det st T u m) (hp : Passive det st) (hr : 60 ≤ rx) (hn : tx ≤ n) (hl : IsLine (u ++ v ++ w)) (hw : w ≠ []) :
    Waits rx tx det st T (u ++ v) (heard (fun m op => step p m (via op)) n m v) := by
  have hlen := hl.len
  simp only [List.length_append] at hlen
  obtain ⟨a, b, c⟩ := h.arrive (v := v) hn (by rw [List.length_append]; omega)
  have hu : nl ∉ u ++ v := by
    obtain ⟨t, e, ht, _⟩ := hl.text
    intro hx
    obtain ⟨w', z, rfl⟩ : ∃ w' z, w = w' ++ [z] := ⟨w.dropLast, w.getLast hw, (List.dropLast_concat_getLast hw).symm⟩
    rw [← List.append_assoc] at e
    obtain ⟨e1, _⟩ := List.append_inj' e rfl
    exact ht (by rw [← e1]; exact List.mem_append_left _ hx)
  rw [heard_eq p h, run_passive p (det := det) (st := st) (by exact h.modem) (by exact h.isOpen) (by exact h.det) (by exact h.started) hp,
    readReply_none a hu]
  exact ⟨h.modem, h.isOpen, h.det, h.started, a, fun _ _ => b, c.trans h.said, hu⟩

/-- The last piece of a line: the line is examined. -/
theorem Waits.line (h : Waits rx tx det st T u m) (hp : Passive det st) (hr : 60 ≤ rx) (hn : tx ≤ n) (hl : IsLine (u ++ v)) :
    ∃ g, heard (fun m op => step p m (via op)) n m v = examine g (u ++ v ++ [0]) ∧ Waits rx tx det st T [] g ∧ g.ser.txFree = tx := by
  have hlen := hl.len
  obtain ⟨a, b, c⟩ := h.arrive (v := v) hn (by omega)
  obtain ⟨t, e, ht, _⟩ := hl.text
  rw [e] at a hlen
  simp only [List.length_append, List.length_cons, List.length_nil] at hlen
  rw [heard_eq p h, run_passive p (det := det) (st := st) (by exact h.modem) (by exact h.isOpen) (by exact h.det) (by exact h.started) hp]
  obtain ⟨s', e1, k1, k2, k3⟩ := a.readLine ht (t.length + 2) (Nat.le_refl _)
  have hc : decide ((t ++ [nl]).count nl % 65536 > 0) = true := by
    rw [List.count_append, List.count_eq_zero.mpr ht]; decide
  unfold readReply
  simp only [a.canReadLine, hc, if_true, a.bytesAvailable]
  have e2 : ((t ++ [nl]).length + 1) % 65536 = t.length + 2 := by
    simp only [List.length_append, List.length_cons, List.length_nil]; omega
  simp only [e2]
  rw [if_neg (by omega)]
  simp only [e1, e]
  have kf : s'.txFree = tx := by
    unfold Ser.txFree; rw [k2]; exact b
  exact ⟨_, rfl, ⟨h.modem, h.isOpen, h.det, h.started, k1, fun _ _ => kf, (k3.trans c).trans h.said, by simp⟩, kf⟩

theorem other {a b l : List Byte} (h : a <+: l) (h1 : ¬ a <+: b) (h2 : ¬ b <+: a) : ¬ b <+: l := fun hb =>
  (List.prefix_or_prefix_of_prefix h hb).elim h1 h2

theorem not_starts (lit l : List Byte) (hz : (0 : Byte) ∉ lit) (h : ¬ lit <+: l) : strncmpEq lit (l ++ [0]) lit.length = false := by
  cases e : strncmpEq lit (l ++ [0]) lit.length with
  | false => rfl
  | true => exact absurd ((strncmp_iff lit l hz).mp e) h

section
variable {l : List Byte}

theorem examine_cgmm (hd : m.det = .cgmmSent) (h1 : ¬ b!"SIMCOM_SIM800" <+: l) (h2 : ¬ b!"SIMCOM_SIM7600" <+: l)
    (h3 : ¬ b!"CC1352P7" <+: l) (h4 : ¬ b!"ERROR" <+: l) : examine m (l ++ [0]) = m := by
  have e1 := not_starts _ l (by decide) h1
  have e2 := not_starts _ l (by decide) h2
  have e3 := not_starts _ l (by decide) h3
  have e4 := not_starts _ l (by decide) h4
  simp only [List.length_cons, List.length_nil, Nat.reduceAdd] at e1 e2 e3 e4
  unfold examine
  rw [hd]
  simp only [e1, e2, e3, e4, Bool.false_eq_true, if_false]

theorem examine_sim800 (hd : m.det = .cgmmSent) (h : b!"SIMCOM_SIM800" <+: l) : examine m (l ++ [0]) = { m with det := .detectedSim800 } := by
  have e1 := (strncmp_iff _ l (by decide)).mpr h
  simp only [List.length_cons, List.length_nil, Nat.reduceAdd] at e1
  unfold examine
  rw [hd]
  simp only [e1, if_true]

theorem examine_sim7x00 (hd : m.det = .cgmmSent) (h : b!"SIMCOM_SIM7600" <+: l) : examine m (l ++ [0]) = { m with det := .detectedSim7x00 } := by
  have e1 := not_starts _ l (by decide) (other h (b := b!"SIMCOM_SIM800") (by decide) (by decide))
  have e2 := (strncmp_iff _ l (by decide)).mpr h
  simp only [List.length_cons, List.length_nil, Nat.reduceAdd] at e1 e2
  unfold examine
  rw [hd]
  simp only [e1, e2, Bool.false_eq_true, if_false, if_true]

theorem examine_cc (hd : m.det = .cgmmSent) (h : b!"CC1352P7" <+: l) : examine m (l ++ [0]) = { m with det := .detectedCC1352P7 } := by
  have e1 := not_starts _ l (by decide) (other h (b := b!"SIMCOM_SIM800") (by decide) (by decide))
  have e2 := not_starts _ l (by decide) (other h (b := b!"SIMCOM_SIM7600") (by decide) (by decide))
  have e3 := (strncmp_iff _ l (by decide)).mpr h
  simp only [List.length_cons, List.length_nil, Nat.reduceAdd] at e1 e2 e3
  unfold examine
  rw [hd]
  simp only [e1, e2, e3, Bool.false_eq_true, if_false, if_true]

theorem examine_error (hd : m.det = .cgmmSent) (h : b!"ERROR" <+: l) : examine m (l ++ [0]) = { send m gmr with det := .gmrSent } := by
  have e1 := not_starts _ l (by decide) (other h (b := b!"SIMCOM_SIM800") (by decide) (by decide))
  have e2 := not_starts _ l (by decide) (other h (b := b!"SIMCOM_SIM7600") (by decide) (by decide))
  have e3 := not_starts _ l (by decide) (other h (b := b!"CC1352P7") (by decide) (by decide))
  have e4 := (strncmp_iff _ l (by decide)).mpr h
  simp only [List.length_cons, List.length_nil, Nat.reduceAdd] at e1 e2 e3 e4
  unfold examine
  rw [hd]
  simp only [e1, e2, e3, e4, Bool.false_eq_true, if_false, if_true]

theorem examine_gmr (hd : m.det = .gmrSent) (h1 : ¬ b!"AT version:1.7" <+: l) (h2 : ¬ b!"AT version:2.1" <+: l) : examine m (l ++ [0]) = m := by
  have e1 := not_starts _ l (by decide) h1
  have e2 := not_starts _ l (by decide) h2
  simp only [List.length_cons, List.length_nil, Nat.reduceAdd] at e1 e2
  unfold examine
  rw [hd]
  simp only [e1, e2, Bool.or_self, Bool.false_eq_true, if_false]

theorem examine_version (hd : m.det = .gmrSent) (h : b!"AT version:1.7" <+: l ∨ b!"AT version:2.1" <+: l) :
    examine m (l ++ [0]) = { m with det := .espressifWaitOk } := by
  have e : (strncmpEq b!"AT version:1.7" (l ++ [0]) 14 || strncmpEq b!"AT version:2.1" (l ++ [0]) 14) = true := by
    rw [Bool.or_eq_true]
    exact h.imp (strncmp_iff _ l (by decide)).mpr (strncmp_iff _ l (by decide)).mpr
  unfold examine
  rw [hd]
  simp only [e, if_true]

theorem examine_wait (hd : m.det = .espressifWaitOk) (h : ¬ b!"OK\r\n" <+: l) : examine m (l ++ [0]) = m := by
  have e1 := not_starts _ l (by decide) h
  simp only [List.length_cons, List.length_nil, Nat.reduceAdd] at e1
  unfold examine
  rw [hd]
  simp only [e1, Bool.false_eq_true, if_false]

theorem examine_ok (hd : m.det = .espressifWaitOk) (h : b!"OK\r\n" <+: l) : examine m (l ++ [0]) = { m with det := .detectedEspressif } := by
  have e1 := (strncmp_iff _ l (by decide)).mpr h
  simp only [List.length_cons, List.length_nil, Nat.reduceAdd] at e1
  unfold examine
  rw [hd]
  simp only [e1, if_true]

/-- States in which lines have no meaning. -/
def Deaf (det : Det) : Prop := det ≠ .cgmmSent ∧ det ≠ .gmrSent ∧ det ≠ .espressifWaitOk

theorem examine_deaf (hd : Deaf m.det) : examine m l = m := by
  unfold examine
  split
  · rename_i h; exact absurd h hd.1
  · rename_i h; exact absurd h hd.2.1
  · rename_i h; exact absurd h hd.2.2
  · rfl

end

theorem Waits.to {det' : Det} (h : Waits rx tx det st T u m) (hf : m.ser.txFree = tx) : Waits rx tx det' st T u { m with det := det' } :=
  ⟨h.modem, h.isOpen, rfl, h.started, h.ser, fun _ _ => hf, h.said, h.cut⟩

/-- A query is written. -/
theorem Waits.send {det' : Det} (h : Waits rx tx det st T u m) (hf : m.ser.txFree = tx) (hd : det' = .cgmmSent ∨ det' = .gmrSent) {c : List Byte}
    (h0 : (0 : Byte) ∉ c) (hc : c.length ≤ tx) : Waits rx tx det' st (T ++ [c]) u { send m c with det := det' } := by
  obtain ⟨a, b⟩ := h.ser.writeStr c
  refine ⟨h.modem, h.isOpen, rfl, h.started, a, fun x y => (hd.elim x y).elim, ?_, h.cut⟩
  show (m.ser.writeStr c).1.sent = _
  rw [b h0 (by omega), h.said]
  simp

section
variable (hr : 60 ≤ rx) (ht : 20 ≤ tx) (hn : tx ≤ n)
include hr hn

/-- Lines in a state in which they have no meaning. -/
theorem Waits.lines (h : Waits rx tx det st T [] m) (hp : Passive det st) (hd : Deaf det) {xs : List Spoken}
    (hx : ∀ x ∈ xs, x.Is fun _ => True) : Waits rx tx det st T [] (execD p m ((hearAll n xs).map via)) := by
  unfold execD
  rw [List.foldl_map]
  refine go_hearAll (P := fun u => Waits rx tx det st T u) (fun u d h => h.idle p hp) (fun u v w d h hl hw => h.more p hp hr hn hl hw) ?_ h hx
  intro u v d h hl _ _
  obtain ⟨g, e, h1, _⟩ := h.line p hp hr hn hl
  rw [e, examine_deaf (by rw [h1.det]; exact hd)]
  exact h1

/-- One answer. -/
theorem Waits.beat {det' : Det} {T' : List (List Byte)} {a : Await} {b : Beat} (h : Waits rx tx det st T [] m) (hp : Passive det st) (hp' : Passive det' st)
    (hb : Answers a b) (hi : ∀ l g, a.idle l → Waits rx tx det st T [] g → examine g (l ++ [0]) = g)
    (hg : ∀ l g, a.good l → Waits rx tx det st T [] g → g.ser.txFree = tx → Waits rx tx det' st T' [] (examine g (l ++ [0]))) :
    Waits rx tx det' st T' [] (execD p m ((b.ops n).map via)) := by
  unfold execD
  rw [List.foldl_map]
  refine go_beat (P := fun u => Waits rx tx det st T u) (Q := Waits rx tx det' st T' []) (a := a) (fun u d h => h.idle p hp)
    (fun u v w d h hl hw => h.more p hp hr hn hl hw) ?_ ?_ (fun d h => h.idle p hp') h hb
  · intro u v d h hl _ hv
    obtain ⟨g, e, h1, _⟩ := h.line p hp hr hn hl
    rw [e, hi _ _ hv h1]
    exact h1
  · intro u v d h hl _ hv
    obtain ⟨g, e, h1, h2⟩ := h.line p hp hr hn hl
    rw [e]
    exact hg _ _ hv h1 h2

include ht

/-- The detection begins. -/
theorem begin_ok {rxm txm : List Byte} (h1 : rx = rxm.length) (h2 : tx = txm.length) {xs : List Spoken} (hx : ∀ x ∈ xs, x.Is fun _ => True) (k : Nat) :
    Waits rx tx .cgmmSent true [cgmm] []
      (execD p (init (Ser.init rxm txm [])) (.run true :: (hearAll n xs).map via ++ (.start :: List.replicate (k + 2) (.run true)))) := by
  subst h1 h2
  have h0 : Waits rxm.length txm.length .noState false [] [] (step p (init (Ser.init rxm txm [])) (.run true)) :=
    ⟨rfl, rfl, rfl, rfl, ⟨rfl, rfl, Ser.rxRep_init rxm txm [], ⟨[], LineBuf.rep_init txm, rfl⟩, by omega, rfl, rfl⟩, fun _ _ => rfl, rfl, by simp⟩
  have h1 := h0.lines p hr hn ⟨by decide, fun _ => rfl⟩ ⟨by decide, by decide, by decide⟩ hx
  have e : ∀ a b : List DOp, ∀ m, execD p m (a ++ b) = execD p (execD p m a) b := fun a b m => List.foldl_append
  rw [e]
  have e2 : execD p (init (Ser.init rxm txm [])) (.run true :: (hearAll n xs).map via) =
    execD p (step p (init (Ser.init rxm txm [])) (.run true)) ((hearAll n xs).map via) := rfl
  rw [e2]
  generalize execD p (step p (init (Ser.init rxm txm [])) (.run true)) ((hearAll n xs).map via) = m at h1
  have h2 : Waits rxm.length txm.length .beginState true [] [] (step p (startDetection m) (.run true)) := by
    have : step p (startDetection m) (.run true) = readReply { startDetection m with det := .beginState } := by
      rw [run_open p (m := startDetection m) h1.modem h1.isOpen, query_none (m := startDetection m) h1.det rfl]
    rw [this, readReply_none (m := { startDetection m with det := .beginState }) h1.ser h1.cut]
    exact ⟨h1.modem, h1.isOpen, rfl, rfl, h1.ser, fun _ _ => h1.free (by rw [h1.det]; decide) (by rw [h1.det]; decide), h1.said, h1.cut⟩
  show Waits _ _ _ _ _ _ (execD p (step p (step p (startDetection m) (.run true)) (.run true)) (List.replicate k (.run true)))
  generalize step p (startDetection m) (.run true) = m at h2
  have hfree : m.ser.txFree = txm.length := by
    exact h2.free (by rw [h2.det]; decide) (by rw [h2.det]; decide)
  have h3 : Waits rxm.length txm.length .cgmmSent true [cgmm] [] (step p m (.run true)) := by
    obtain ⟨a, b, c⟩ := h2.ser.flushed
    have h4 : Waits rxm.length txm.length .beginState true [] [] { m with ser := m.ser.flushReceiveBuffers, trace := m.trace ++ [.flush] } :=
      ⟨h2.modem, h2.isOpen, h2.det, h2.started, a, fun _ _ => c.trans hfree, b.trans h2.said, h2.cut⟩
    have h5 := h4.send (det' := .cgmmSent) (c := cgmm) (c.trans hfree) (.inl rfl) (by decide) (by show 9 ≤ _; omega)
    have e : step p m (.run true) = readReply { send { m with ser := m.ser.flushReceiveBuffers, trace := m.trace ++ [.flush] } cgmm with det := .cgmmSent, delay := 10 } := by
      rw [run_open p h2.modem h2.isOpen, query_begin h2.det]
    rw [e, readReply_none (u := []) (by exact h5.ser) (by simp)]
    exact ⟨h5.modem, h5.isOpen, h5.det, h5.started, h5.ser, h5.free, h5.said, h5.cut⟩
  have : ∀ k (m : MD), Waits rxm.length txm.length .cgmmSent true [cgmm] [] m →
      Waits rxm.length txm.length .cgmmSent true [cgmm] [] (execD p m (List.replicate k (.run true))) := by
    intro k
    induction k with
    | zero => intro m h; exact h
    | succ k ih => intro m h; exact ih _ (h.idle p ⟨by decide, by decide⟩)
  exact this k _ h3

end

end ModemDetect
end Verif
