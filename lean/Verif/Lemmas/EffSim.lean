import Lean.Elab.Tactic
import Verif.Lemmas.Eff
import Verif.Lemmas.DrvFrame

/-!
# `run()` of the cellular drivers as a sequence of primitive operations
-/

namespace Verif

open Dev

/-- Control members only. -/
theorem Dev.Eff.mk {S R X : Type} {y : List Byte → Byte → Prop} {st : Bool} {d x : Dev S R X} {a1 a2 a3 a4 a5 a6 a7 a8 a9 a10 a11 a12
    a13 a14 a15 a16 a17 a18 a19 a20 a21 a22} (h : Eff y st d x) :
    Eff y st d
      { ser := x.ser, isOpen := a1, rbuf := x.rbuf, wbuf := x.wbuf, typ := a2, host := a3, port := a4,
        connectPending := a5, resetPending := a6, dataPending := a7, disconnectPending := a8,
        ipConnected := a9, lineRead := a10, serialLocked := a11, cs := a12, wait := a13,
        line := x.line, lbFill := x.lbFill, snd := a14, rep := a15, bytesToWrite := a16,
        bytesToReceive := a17, bytesToRead := a18, rssi := a19, delay := a20, ub := a21,
        trace := x.trace, ext := a22 } :=
  Eff.set x h rfl rfl rfl rfl rfl rfl

theorem Dev.Eff.let_ {S R X : Type} {x : List Byte → Byte → Prop} {st : Bool} {d : Dev S R X} (v : Dev S R X)
    (b : Dev S R X → Dev S R X) (h : Eff x st d v) (k : ∀ y, Eff x st d y → Eff x st d (b y)) :
    Eff x st d (b v) := k v h

open Lean Meta Elab Tactic in
/-- One step of splitting a state into primitive operations, from the outside. Looks at the last state
of the goal. -/
elab "eff_step" : tactic => withMainContext do
  let g ← getMainGoal
  let t := (← instantiateMVars (← g.getType)).consumeMData
  let e := t.appArg!.consumeMData
  if e.isHeadBetaTarget then
    replaceMainGoal [← g.change (mkApp t.appFn! e.headBeta)]
  else if let .letE n ty v b _ := e then
    let isDev := ty.isAppOf ``Dev || ty.isAppOf ``SimDev || ty.isAppOf `Verif.Sim7x00.D
        || ty.isAppOf `Verif.Sim800.D || ty.isAppOf `Verif.Espressif.D
        || ty.isAppOf `Verif.CC1352P7.D
    if isDev && (← isTypeCorrect (.lam n ty b .default)) then
      let vS ← Term.exprToSyntax v
      let bS ← Term.exprToSyntax (.lam n ty b .default)
      evalTactic (← `(tactic| refine Dev.Eff.let_ $vS $bS ?_ ?_))
      evalTactic (← `(tactic| rotate_left; intro _ _; rotate_left))
    else
      replaceMainGoal [← g.change (mkApp t.appFn! (b.instantiate1 v))]
  else
    match e.getAppFn with
    | .const ``Dev.mk _ => evalTactic (← `(tactic| refine Eff.mk ?_))
    | .const ``Dev.cmd _ => evalTactic (← `(tactic| refine Eff.cmd' ?_ _))
    | .const ``Dev.arg _ => evalTactic (← `(tactic| refine Eff.arg' ?_ _))
    | .const ``Dev.cmdN _ => evalTactic (← `(tactic| refine Eff.cmdN' ?_ _))
    | .const ``Dev.argN _ => evalTactic (← `(tactic| refine Eff.argN' ?_ _))
    | .const ``Dev.sendCommand _ => evalTactic (← `(tactic| refine Eff.sendCommand ?_ _))
    | .const ``Dev.askSpace _ => evalTactic (← `(tactic| refine Eff.askSpace' ?_))
    | .const ``Dev.askAvail _ => evalTactic (← `(tactic| refine Eff.askAvail' ?_))
    | .const ``Dev.flushSer _ => evalTactic (← `(tactic| refine Eff.trans ?_ (Eff.flushSer _)))
    | .const ``Dev.sendData _ => evalTactic (← `(tactic| refine Eff.trans ?_ (Eff.sendData _)))
    | .const ``Dev.handleDisconnect _ => evalTactic (← `(tactic| refine Eff.handleDisconnect ?_ _))
    | .const ``Dev.handleConnect _ => evalTactic (← `(tactic| refine Eff.handleConnect ?_ _))
    | .const ``ite _ => evalTactic (← `(tactic| split))
    | .const ``Prod.fst _ =>
      let x := e.appArg!.consumeMData
      if x.isAppOf ``Prod.mk then
        replaceMainGoal [← g.change (mkApp t.appFn! x.appFn!.appArg!)]
      else if x.isAppOf ``ite then evalTactic (← `(tactic| split))
      else if x.isAppOf ``Dev.ipConnect then
        evalTactic (← `(tactic| refine Eff.ipConnect ?_))
      else if x.isAppOf ``Dev.prepareSending then
        evalTactic (← `(tactic| refine Eff.prepareSending ?_ _))
      else evalTactic (← `(tactic| first | with_reducible assumption | dsimp only))
    | .fvar _ =>
      evalTactic (← `(tactic| first | with_reducible assumption | with_reducible exact Eff.refl _))
    | _ => throwError "no step"

macro "eff" : tactic => `(tactic| repeat' eff_step)

variable {S R : Type} {x : List Byte → Byte → Prop} {st : Bool}

theorem stopOk_sim (r : R) : StopOk x (SimDev.lineStop r) where
  full m c := by simp [SimDev.lineStop]
  nl m k := by simp [SimDev.lineStop]
  gt m k := by simp [SimDev.lineStop]
  fin m k c r h := by
    unfold SimDev.lineStop at h
    split at h
    · rename_i hc
      rcases hc with hc | hc | hc
      · exact Or.inl hc
      · exact Or.inr (Or.inl hc)
      · exact Or.inr (Or.inr (Or.inl hc))
    · simp at h

namespace Dev

/-- Payload is read only when no unfinished line is in the buffer. -/
def Clear (st : Bool) {X : Type} (d : Dev S R X) : Prop :=
  st = true → d.bytesToRead ≠ 0 → d.lbFill = 0

/-- While payload is expected, line reading is off and the line buffer is empty. -/
def Quiet {X : Type} (d : Dev S R X) : Prop :=
  d.bytesToRead ≠ 0 → d.lineRead = false ∧ d.lbFill = 0

theorem fillLine_fill {X : Type} {d : Dev S R X} {stop : Mem → Nat → Byte → Option R}
    (h : (d.fillLine stop).2 = true) : (d.fillLine stop).1.lbFill = 0 := by
  have key : ∀ (n : Nat) (s : Ser) (l : Mem) (k : Nat) x,
      (fillLoop stop n s l k).2.2.2 = some x → (fillLoop stop n s l k).2.2.1 = 0 := by
    intro n
    induction n with
    | zero => intro s l k x h; simp [fillLoop] at h
    | succ n ih =>
      intro s l k x h
      unfold fillLoop at h ⊢
      simp only at h ⊢
      split
      · rename_i hz; rw [if_pos hz] at h; simp at h
      · rename_i hz
        rw [if_neg hz] at h
        split
        · rfl
        · rename_i hs
          rw [hs] at h
          exact ih _ _ _ _ h
  unfold fillLine at h ⊢
  cases hl : d.lineRead with
  | false => simp [hl] at h
  | true =>
    simp only [hl, if_true] at h ⊢
    split at h
    · simp at h
    · rename_i x hx
      exact key _ _ _ _ _ hx

theorem fillLine_clear {X : Type} {d : Dev S R X} (stop : Mem → Nat → Byte → Option R)
    (h : st = true → Quiet d) : Clear st (d.fillLine stop).1 := by
  intro hs hb
  cases hf : (d.fillLine stop).2 with
  | true => exact fillLine_fill hf
  | false =>
    have hb' : d.bytesToRead ≠ 0 := by simpa using hb
    have hq := h hs hb'
    rw [fillLine_off d stop hq.1]
    exact hq.2

end Dev

namespace SimDev

theorem eff_fillLineBuffer (d : SimDev S R) : Eff x st d d.fillLineBuffer.1 :=
  .fillLine _ _ (stopOk_sim _)

theorem eff_connect {d d' : SimDev S R} (h : Eff x st d d') : Eff x st d (SimDev.connect d').1 := by
  unfold SimDev.connect
  eff

theorem eff_sendDnsQuery {d d' : SimDev S R} (h : Eff x st d d') : Eff x st d (d'.sendDnsQuery).1 := by
  refine h.trans ?_
  unfold SimDev.sendDnsQuery
  dsimp only
  eff

theorem eff_sendCiprxget2 {d d' : SimDev S R} (h : Eff x st d d') :
    Eff x st d (d'.sendCiprxget2).1 := by
  refine h.trans ?_
  unfold SimDev.sendCiprxget2
  dsimp only
  eff

theorem eff_sendIDRequest {d d' : SimDev S R} (h : Eff x st d d') (c : List Byte) :
    Eff x st d (d'.sendIDRequest c).1 := by
  refine h.trans ?_
  unfold SimDev.sendIDRequest
  split
  · dsimp only
    split <;> eff
  · eff

theorem eff_checkConnectionState {d d' : SimDev S R} (h : Eff x st d d') (c : List Byte) :
    Eff x st d (d'.checkConnectionState c) := by
  unfold SimDev.checkConnectionState
  eff

theorem eff_parseCiprxget4 {p : Platform} {d d' : SimDev S R} (h : Eff x st d d') :
    Eff x st d (SimDev.parseCiprxget4 p d').1 := by
  unfold SimDev.parseCiprxget4
  eff

theorem eff_parseCiprxget2 {p : Platform} {d d' : SimDev S R} (h : Eff x st d d') :
    Eff x st d (SimDev.parseCiprxget2 p d').1 := by
  unfold SimDev.parseCiprxget2
  eff

theorem eff_parseCsq {p : Platform} {d d' : SimDev S R} (h : Eff x st d d') :
    Eff x st d (SimDev.parseCsq p d').1 := by
  unfold SimDev.parseCsq
  eff

theorem eff_parseIDReply {d d' : SimDev S R} (h : Eff x st d d') :
    Eff x st d (d'.parseIDReply).1 := by
  unfold SimDev.parseIDReply SimDev.parseIDReply.go
  eff

theorem length_afterQuotes (n : Nat) (l : List Byte) : (afterQuotes n l).length ≤ l.length := by
  induction l generalizing n with
  | nil => cases n <;> simp [afterQuotes]
  | cons c cs ih =>
    cases n with
    | zero => simp [afterQuotes]
    | succ n =>
      unfold afterQuotes
      split
      · exact Nat.le_succ_of_le (ih n)
      · exact Nat.le_succ_of_le (ih (n + 1))

theorem length_cutQuotes (l : List Byte) : (cutQuotes l).length = l.length := by
  unfold cutQuotes
  rw [List.length_append, List.length_map, ← List.length_append, List.takeWhile_append_dropWhile]

theorem eff_parseDnsReply {d d' : SimDev S R} (h : Eff x st d d') (hf : d'.lbFill = 0) :
    Eff x st d (d'.parseDnsReply).1 := by
  unfold SimDev.parseDnsReply
  eff
  refine h.trans (.ctl ⟨rfl, rfl, rfl, rfl, rfl, ?_, rfl, Or.inr hf⟩)
  have h1 := length_afterQuotes 3 d'.line.cells
  simp only [List.length_append, List.length_take, length_cutQuotes]
  omega

end SimDev

namespace Sim7x00

@[simp] theorem parseWait_lbFill (d : D) : (parseWait d).1.lbFill = d.lbFill := by
  unfold parseWait
  (repeat' split) <;> rfl

@[simp] theorem parseReply_lbFill (p : Platform) (d : D) : (parseReply p d).1.lbFill = d.lbFill := by
  unfold parseReply
  split <;> (try dsimp only) <;> (repeat' split) <;> simp

@[simp] theorem checkState_lbFill (d : D) : (checkState d).lbFill = d.lbFill := by
  unfold checkState
  split <;> simp

@[simp] theorem parseLine_lbFill (p : Platform) (d : D) : (parseLine p d).1.lbFill = d.lbFill := by
  unfold parseLine
  dsimp only
  (repeat' split) <;> simp

theorem eff_handleReset (d : D) : Eff x st d (handleReset d) := by
  unfold handleReset
  eff

theorem eff_parseWait (d : D) : Eff x st d (parseWait d).1 := by
  unfold parseWait
  eff

theorem eff_parseReply (p : Platform) (d : D) (hf : d.lbFill = 0) : Eff x st d (parseReply p d).1 := by
  unfold parseReply
  split
  · eff
  · have := SimDev.eff_parseDnsReply (Eff.refl (x := x) (st := st) d) hf
    eff
  · eff
  · have := SimDev.eff_parseCiprxget4 (p := p) (Eff.refl (x := x) (st := st) d)
    eff
  · have := SimDev.eff_parseCiprxget2 (p := p) (Eff.refl (x := x) (st := st) d)
    eff
  · have := SimDev.eff_parseCsq (p := p) (Eff.refl (x := x) (st := st) d)
    eff
  · have := SimDev.eff_parseIDReply (Eff.refl (x := x) (st := st) d)
    eff
  · eff
  · eff

theorem eff_parseLine (p : Platform) (d : D) (hf : d.lbFill = 0) : Eff x st d (parseLine p d).1 := by
  unfold parseLine
  have h1 := eff_parseWait (x := x) (st := st) d
  have h2 := h1.trans (eff_parseReply p _ (by simpa using hf))
  have h3 := SimDev.eff_checkConnectionState h2 b!"+IPCLOSE: 0,"
  eff
  unfold checkState
  split <;> assumption

theorem eff_flushIfDisconnecting (d : D) (hz : Clear st d) : Eff x st d (flushIfDisconnecting d) := by
  unfold flushIfDisconnecting
  split
  · exact .flushReadBuffer _ hz
  · exact .refl _

theorem eff_act (d : D) (hz : Clear st d) : Eff x st d (act d) := by
  unfold act
  split
  · eff
  · eff
  · unfold actCgsockcont; eff
  · eff
  · eff
  · eff
  · eff
  · have := SimDev.eff_sendDnsQuery (Eff.refl (x := x) (st := st) d)
    eff
  · unfold actCipopen; eff
  · eff
  · unfold actConnected; eff
  · eff
  · eff
  · unfold actCiprxget2
    have := SimDev.eff_sendCiprxget2 (Eff.refl (x := x) (st := st) d)
    eff
  · eff
  · unfold actReceiving
    have := Eff.receive (x := x) (strict := st) d hz
    eff
  · eff
  · eff
  · eff
  · eff
  · eff

theorem eff_proceed (d : D) (hz : Clear st d) : Eff x st d (proceed d) := by
  unfold proceed
  split
  · exact .refl _
  · split
    · exact .askSpace _
    · refine (Eff.askSpace _).trans ?_
      have hz' : Clear st d.askSpace := hz
      generalize d.askSpace = d at hz'
      unfold sendNext
      split
      · eff
      · have h1 := SimDev.eff_sendIDRequest (Eff.refl (x := x) (st := st) d) iccidCommand
        dsimp only
        split
        · eff
        · refine h1.trans (eff_act _ ?_)
          intro h2 h3
          rw [SimDev.sendIDRequest_bytesToRead] at h3
          rw [SimDev.sendIDRequest_lbFill]
          exact hz' h2 h3

theorem eff_work (p : Platform) (d : D) (h : st = true → Quiet d) : Eff x st d (work p d) := by
  unfold work
  have h1 := SimDev.eff_fillLineBuffer (x := x) (st := st) d
  have h2 := fillLine_clear (SimDev.lineStop d.rep) h
  dsimp only
  split
  · rename_i hf
    have h3 := fillLine_fill hf
    have h4 := h1.trans (eff_parseLine p _ h3)
    split
    · exact h4
    · refine h4.trans (eff_proceed _ ?_)
      intro _ _
      rw [parseLine_lbFill]
      exact h3
  · refine (h1.trans (eff_flushIfDisconnecting _ h2)).trans (eff_proceed _ ?_)
    intro h3 h4
    have h5 := h2 h3
    unfold flushIfDisconnecting at h4 ⊢
    split
    · rename_i hc
      rw [if_pos hc] at h4
      refine h5 ?_
      intro h6
      apply h4
      show (flushLoop _ _).2.1 = 0
      have h7 : (SimDev.fillLineBuffer d).1.bytesToRead = 0 := h6
      rw [h7]
      rfl
    · rename_i hc
      rw [if_neg hc] at h4
      exact h5 h4

theorem eff_run (p : Platform) (d : D) (ok : Bool) (h : st = true → Quiet d) :
    Eff x st d (run p d ok) := by
  unfold run
  split
  · unfold tryOpen; eff
  · split
    · exact .refl _
    · split
      · exact eff_handleReset d
      · exact eff_work p d h

end Sim7x00

namespace Sim800

@[simp] theorem parseWait_lbFill (d : D) : (parseWait d).lbFill = d.lbFill := by
  unfold parseWait
  split <;> rfl

@[simp] theorem parseReply_lbFill (p : Platform) (d : D) : (parseReply p d).lbFill = d.lbFill := by
  unfold parseReply
  split <;> (try dsimp only) <;> (repeat' split) <;> simp

@[simp] theorem checkState_lbFill (d : D) : (checkState d).lbFill = d.lbFill := by
  unfold checkState
  split <;> simp

@[simp] theorem parseLine_lbFill (p : Platform) (d : D) : (parseLine p d).1.lbFill = d.lbFill := by
  unfold parseLine
  split <;> simp

theorem eff_handleReset (d : D) : Eff x st d (handleReset d) := by
  unfold handleReset
  eff
  all_goals
    apply SimDev.eff_connect
    eff

theorem eff_parseWait (d : D) : Eff x st d (parseWait d) := by
  unfold parseWait
  eff

theorem eff_parseReply (p : Platform) (d : D) (hf : d.lbFill = 0) : Eff x st d (parseReply p d) := by
  unfold parseReply
  split
  · eff
  · have := SimDev.eff_parseDnsReply (Eff.refl (x := x) (st := st) d) hf
    eff
  · eff
  · have := SimDev.eff_parseCiprxget4 (p := p) (Eff.refl (x := x) (st := st) d)
    eff
  · have := SimDev.eff_parseCiprxget2 (p := p) (Eff.refl (x := x) (st := st) d)
    eff
  · have := SimDev.eff_parseCsq (p := p) (Eff.refl (x := x) (st := st) d)
    dsimp only
    generalize hq : (if (SimDev.parseCsq p d).2 = true then
      ({ (SimDev.parseCsq p d).1 with rep := .okReply } : D) else (SimDev.parseCsq p d).1) = q
    have h1 : Eff x st d q := by rw [← hq]; eff
    have h2 := SimDev.eff_parseIDReply h1
    eff
  · have := SimDev.eff_parseIDReply (Eff.refl (x := x) (st := st) d)
    eff
  · eff

theorem eff_parseLine (p : Platform) (d : D) (hf : d.lbFill = 0) : Eff x st d (parseLine p d).1 := by
  unfold parseLine
  have h1 := eff_parseWait (x := x) (st := st) d
  have h2 := h1.trans (eff_parseReply p _ (by simpa using hf))
  have h3 := SimDev.eff_checkConnectionState h2 b!"0, CLOSED"
  eff
  unfold checkState
  split <;> assumption

theorem eff_flushIfDisconnecting (d : D) (hz : Clear st d) : Eff x st d (flushIfDisconnecting d) := by
  unfold flushIfDisconnecting
  split
  · exact .flushReadBuffer _ hz
  · exact .refl _

theorem eff_act (d : D) (hz : Clear st d) : Eff x st d (act d) := by
  have h1 := SimDev.eff_sendDnsQuery (Eff.refl (x := x) (st := st) d)
  have h2 := SimDev.eff_sendCiprxget2 (Eff.refl (x := x) (st := st) d)
  have h3 := Eff.receive (x := x) (strict := st) d hz
  unfold act
  split <;> (try unfold actCstt) <;> (try unfold actCipstart) <;> (try unfold actConnected) <;>
    (try unfold actCiprxget2) <;> (try unfold actReceiving) <;> eff

theorem eff_proceed (d : D) (hz : Clear st d) : Eff x st d (proceed d) := by
  unfold proceed
  split
  · exact .refl _
  · split
    · exact .askSpace _
    · refine (Eff.askSpace _).trans ?_
      have hz' : Clear st d.askSpace := hz
      generalize d.askSpace = d at hz'
      unfold sendNext
      split
      · eff
      · have h1 := SimDev.eff_sendIDRequest (Eff.refl (x := x) (st := st) d) iccidCommand
        dsimp only
        split
        · eff
        · refine h1.trans (eff_act _ ?_)
          intro h2 h3
          rw [SimDev.sendIDRequest_bytesToRead] at h3
          rw [SimDev.sendIDRequest_lbFill]
          exact hz' h2 h3

theorem eff_work (p : Platform) (d : D) (h : st = true → Quiet d) : Eff x st d (work p d) := by
  unfold work
  have h1 := SimDev.eff_fillLineBuffer (x := x) (st := st) d
  have h2 := fillLine_clear (SimDev.lineStop d.rep) h
  dsimp only
  split
  · rename_i hf
    have h3 := fillLine_fill hf
    have h4 := h1.trans (eff_parseLine p _ h3)
    split
    · exact h4
    · refine h4.trans (eff_proceed _ ?_)
      intro _ _
      rw [parseLine_lbFill]
      exact h3
  · refine (h1.trans (eff_flushIfDisconnecting _ h2)).trans (eff_proceed _ ?_)
    intro h3 h4
    have h5 := h2 h3
    unfold flushIfDisconnecting at h4 ⊢
    split
    · rename_i hc
      rw [if_pos hc] at h4
      refine h5 ?_
      intro h6
      apply h4
      show (flushLoop _ _).2.1 = 0
      have h7 : (SimDev.fillLineBuffer d).1.bytesToRead = 0 := h6
      rw [h7]
      rfl
    · rename_i hc
      rw [if_neg hc] at h4
      exact h5 h4

theorem quiet_handleReset (d : D) : Quiet (handleReset d) := by
  intro h
  unfold handleReset at h
  dsimp only at h
  split at h <;> simp at h

theorem eff_run (p : Platform) (d : D) (ok : Bool) (h : st = true → Quiet d) :
    Eff x st d (run p d ok) := by
  unfold run
  split
  · unfold tryOpen; eff
  · split
    · exact .refl _
    · split
      · exact (eff_handleReset d).trans (eff_work p _ fun _ => quiet_handleReset d)
      · exact eff_work p d h

end Sim800
end Verif
