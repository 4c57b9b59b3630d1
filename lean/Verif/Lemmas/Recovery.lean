import Verif.Spec.Recovery
import Verif.Lemmas.ChatDns

/-! Drivers in a dialogue with a modem that refuses commands. -/

namespace Verif

open Spec

namespace Ser

theorem Calm.flush {s : Ser} {rq : List Byte} {rx tx : Nat} (h : Calm s rq rx tx) :
    Calm s.flushReceiveBuffers [] rx tx ∧ s.flushReceiveBuffers.txFree = s.txFree ∧ s.flushReceiveBuffers.sent = s.sent := by
  have e : s.flushReceiveBuffers = { s with rx := s.rx.flush, accepted := [], taken := [] } := by
    unfold Ser.flushReceiveBuffers
    rw [h.sync]
    have := h.irq
    cases s; simp only at this; subst this; rfl
  refine ⟨?_, by rw [e]; rfl, by rw [e]⟩
  have hq := rxRep_flush h.q
  rw [e] at hq ⊢
  exact ⟨h.sched, h.irq, hq, h.out, h.pos, h.rxs, h.txs⟩

end Ser

namespace Dev

variable {S R X : Type} {c : Conf} {E : X → Prop} {t0 : List Ev} {T : List (List Byte)} {q : St S R} {d : Dev S R X}

/-- The serial receive buffer is flushed. -/
theorem Talk.flush (h : Talk c E t0 T q d) : Talk c E t0 T q d.flushSer ∧ d.flushSer.ser.txFree = d.ser.txFree := by
  have := h.calm.ser.flush
  exact ⟨⟨⟨h.calm.isOpen, h.calm.lock, h.calm.reset, h.calm.lineRead, ⟨h.calm.line.len, h.calm.line.fill, h.calm.line.oob⟩, h.calm.fill,
    this.1⟩, h.told.quiet .flush rfl rfl rfl rfl, h.st, h.host, h.port, h.typ, h.data, h.wbuf, h.wcap, h.rbuf, h.rcap,
    h.rcv, h.rd, h.bw, h.ext⟩, this.2.1⟩

section
variable {step : Dev S R X → Op → Dev S R X} {n : Nat}

/-- One answer of the modem and at least three calls of `run()` lead from `P` to `Q`. -/
theorem exec_slow {P : List Byte → Dev S R X → Prop} {Q0 Q1 Q : Dev S R X → Prop} {a : Await}
    (hi : ∀ d hs, step d (.irq hs) = { d with ser := d.ser.transfers hs }) (hp : ∀ u d, P u d → P u (step d (.run true)))
    (hm : ∀ u v w d, P u d → IsLine (u ++ v ++ w) → w ≠ [] → a.idle (u ++ v ++ w) ∨ a.good (u ++ v ++ w) →
      P (u ++ v) (step (hearing d n v) (.run true)))
    (hn : ∀ u v d, P u d → IsLine (u ++ v) → v ≠ [] → a.idle (u ++ v) → P [] (step (hearing d n v) (.run true)))
    (hg : ∀ u v d, P u d → IsLine (u ++ v) → v ≠ [] → a.good (u ++ v) → Q0 (step (hearing d n v) (.run true)))
    (h0 : ∀ d, Q0 d → Q1 (step d (.run true))) (h1 : ∀ d, Q1 d → Q (step d (.run true)))
    (hq : ∀ d, Q d → Q (step d (.run true))) {d : Dev S R X} (hd : P [] d) {b : Beat} (hb : Answers a b) (hs : b.Slow) :
    Q (exec step d (b.ops n)) := by
  unfold Beat.ops
  rw [exec_append]
  obtain ⟨u, g, k1, k2, k3, k4, k5⟩ := exec_last hi hp (fun u v w d h1 h2 h3 h4 => hm u v w d h1 h2 h3 (.inr h4))
    (exec_hearAll hi hp (fun u v w d h1 h2 h3 h4 => hm u v w d h1 h2 h3 (.inl h4)) hn hd hb.noise) hb.answer
  rw [k5]
  obtain ⟨j, hj⟩ : ∃ j, b.answer.runs = j + 2 := ⟨b.answer.runs - 2, by have : 2 ≤ b.answer.runs := hs; omega⟩
  rw [hj]
  exact exec_runs hq (h1 _ (h0 _ (hg _ _ _ k1 k2 k3 k4))) j

variable {P : List (List Byte) → Nat → Dev S R X → Prop} {pl : Plan}

theorem exec_steps (hs : ∀ T i (h : i < pl.steps.length) d b, P T i d → Answers pl.steps[i].await b → (i = 0 → b.Slow) →
      P (T ++ pl.steps[i].said) (i + 1) (exec step d (b.ops n)))
    {T U : List (List Byte)} {i j : Nat} {d : Dev S R X} {bs : List Beat} (hd : P T i d) (h : pl.Steps i bs U j) :
    P (T ++ U) j (exec step d (Spec.ops n bs)) := by
  induction h generalizing T d with
  | nil i => rw [List.append_nil]; exact hd
  | cons hi ha hw _ ih =>
    rw [← List.append_assoc]
    show P _ _ (exec step d (_ ++ Spec.ops n _))
    rw [exec_append]
    exact ih (hs _ _ hi _ _ hd ha hw)

theorem exec_setbacks (hs : ∀ T i (h : i < pl.steps.length) d b, P T i d → Answers pl.steps[i].await b → (i = 0 → b.Slow) →
      P (T ++ pl.steps[i].said) (i + 1) (exec step d (b.ops n)))
    (hf : ∀ T i d b, P T i d → Answers (pl.refusal i) b → b.Slow → P (T ++ pl.says i) (pl.back i) (exec step d (b.ops n)))
    {T U : List (List Byte)} {i j : Nat} {d : Dev S R X} {ss : List Setback} (hd : P T i d) (h : pl.Setbacks i ss U j) :
    P (T ++ U) j (exec step d (setbacks n ss)) := by
  induction h generalizing T d with
  | nil i => rw [List.append_nil]; exact hd
  | cons h1 h2 h3 _ ih =>
    rename_i T1 U1 _
    rw [← List.append_assoc, ← List.append_assoc]
    show P _ _ (exec step d (Setback.ops n _ ++ setbacks n _))
    unfold Setback.ops
    rw [exec_append, exec_append]
    exact ih (hf _ _ _ _ (exec_steps hs hd h1) h2 h3)

end

end Dev

/-- The name server does not know the host. -/
theorem SimDev.dns_refused {S R : Type} {d : SimDev S R} {l : List Byte} (hl : d.LineDone l) (hx : b!"+CDNSGIP: 0" <+: l) :
    d.parseDnsReply = ({ d with resetPending := true }, false) := by
  unfold SimDev.parseDnsReply
  rw [hl.has_false (by decide) (not_prefix_of hx (by decide) (by decide)), hl.has_true (by decide) hx]
  simp

end Verif
