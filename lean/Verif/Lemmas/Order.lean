import Verif.Spec.Order
import Verif.Lemmas.Moves

/-! Invariants for the order of commands. -/

namespace Verif

open Dev Spec

attribute [local simp] Diagram.last

/-- `g.last.after d.trace` is in the list, or the list is not given. -/
def isIn (s : Option (List Byte)) : Option (List (Option (List Byte))) → Prop
  | none => True
  | some l => s ∈ l

/-- The trace follows the diagram; the last command fits the state of the driver. -/
structure Ord (g : Diagram) (fs : S → Option (List (Option (List Byte))))
    (fr : R → Option (List (Option (List Byte)))) (d : Dev S R X) : Prop where
  ord : g.Follows d.trace
  snd : isIn (g.last.after d.trace) (fs d.snd)
  rep : isIn (g.last.after d.trace) (fr d.rep)

section
variable {g : Diagram} {fs : S → Option (List (Option (List Byte)))}
    {fr : R → Option (List (Option (List Byte)))} {d e : Dev S R X}

theorem Ord.same (h : Ord g fs fr d) (ht : e.trace = d.trace) (hs : e.snd = d.snd) (hr : e.rep = d.rep) :
    Ord g fs fr e := ⟨by rw [ht]; exact h.ord, by rw [ht, hs]; exact h.snd, by rw [ht, hr]; exact h.rep⟩

/-- Events that do not matter. -/
def idle (g : Diagram) (x : Ev) : Prop := (∀ s, g.allows s x = true) ∧ ∀ s, g.last.step s x = s

theorem follows_idle {t new : List Ev} (h : g.Follows t) (hn : ∀ x ∈ new, idle g x) :
    g.Follows (t ++ new) ∧ g.last.after (t ++ new) = g.last.after t := by
  refine ⟨?_, g.last.after_neutral t new fun x hx => (hn x hx).2⟩
  revert hn
  refine snocInd (P := fun new => (∀ x ∈ new, idle g x) → g.Follows (t ++ new)) ?_ ?_ new
  · intro _; simpa using h
  · intro l a ih hn
    rw [← List.append_assoc]
    exact always_snoc.mpr ⟨ih fun x hx => hn x (by simp [hx]), (hn a (by simp)).1 _⟩

theorem Ord.more (h : Ord g fs fr d) (new : List Ev) (hn : ∀ x ∈ new, idle g x) (ht : e.trace = d.trace ++ new)
    (hs : isIn (g.last.after d.trace) (fs e.snd)) (hr : isIn (g.last.after d.trace) (fr e.rep)) :
    Ord g fs fr e := by
  have := follows_idle h.ord hn
  exact ⟨by rw [ht]; exact this.1, by rw [ht, this.2]; exact hs, by rw [ht, this.2]; exact hr⟩

theorem Ord.note (h : Ord g fs fr d) (x : Ev) (hn : idle g x) (ht : e.trace = d.trace ++ [x])
    (hs : e.snd = d.snd) (hr : e.rep = d.rep) : Ord g fs fr e :=
  h.more [x] (by simpa using hn) ht (by rw [hs]; exact h.snd) (by rw [hr]; exact h.rep)

theorem ord_calls : Calls (Ord (X := X) g fs fr) where
  io _ _ _ _ _ h := h.same rfl rfl rfl
  isOpen _ _ h := h.same rfl rfl rfl
  conn _ h _ _ := h.note _ ⟨by simp [Diagram.allows], by simp⟩ rfl rfl rfl
  disc0 _ h _ := h.note _ ⟨by simp [Diagram.allows], by simp⟩ rfl rfl rfl
  disc _ h _ := h.note _ ⟨by simp [Diagram.allows], by simp⟩ rfl rfl rfl
  write0 _ h _ := h.note _ ⟨by simp [Diagram.allows], by simp⟩ rfl rfl rfl
  write _ _ h _ := h.note _ ⟨by simp [Diagram.allows], by simp⟩ rfl rfl rfl
  read _ _ h := h.note _ ⟨by simp [Diagram.allows], by simp⟩ rfl rfl rfl
  rssi _ h := h.same rfl rfl rfl
  userTx _ _ _ _ h := h.note _ ⟨by simp [Diagram.allows], by simp⟩ rfl rfl rfl
  userRx _ _ _ _ h := h.note _ ⟨by simp [Diagram.allows], by simp⟩ rfl rfl rfl
  host _ _ _ _ h := h.same rfl rfl rfl

theorem idle_arg (w g' : List Byte) : idle g (.arg w g') := ⟨fun _ => rfl, fun _ => rfl⟩

/-- A command that the diagram allows, with its arguments. -/
theorem Ord.cmd (h : Ord g fs fr d) (w gt : List Byte) (args : List Ev) (ha : ∀ x ∈ args, ∃ a b, x = .arg a b)
    (ht : e.trace = d.trace ++ .cmd w gt :: args) (hst : w ∉ g.status)
    (hok : g.allows (g.last.after d.trace) (.cmd w gt) = true)
    (hs : isIn (some w) (fs e.snd)) (hr : isIn (some w) (fr e.rep)) : Ord g fs fr e := by
  have e1 : d.trace ++ .cmd w gt :: args = (d.trace ++ [.cmd w gt]) ++ args := by simp
  have e2 : g.last.after (d.trace ++ [.cmd w gt]) = some w := by
    rw [Observer.after_snoc]; simp [hst]
  have h1 : g.Follows (d.trace ++ [.cmd w gt]) := always_snoc.mpr ⟨h.ord, hok⟩
  have := follows_idle (new := args) h1 fun x hx => by
    obtain ⟨a, b, rfl⟩ := ha x hx
    exact idle_arg a b
  rw [e2] at this
  exact ⟨by rw [ht, e1]; exact this.1, by rw [ht, e1, this.2]; exact hs, by rw [ht, e1, this.2]; exact hr⟩

/-- A status request. -/
theorem Ord.ask (h : Ord g fs fr d) {w g1 g2 : List Byte} (ht : e.trace = d.trace ++ .cmd w g1 :: [.arg lineEnd g2])
    (hw : w ∈ g.status) (hs : e.snd = d.snd) (hr : fr e.rep = none) : Ord g fs fr e := by
  refine h.more (.cmd w g1 :: [.arg lineEnd g2]) ?_ ht (by rw [hs]; exact h.snd) (by rw [hr]; trivial)
  intro x hx
  simp only [List.mem_cons, List.not_mem_nil, or_false] at hx
  rcases hx with rfl | rfl
  · exact ⟨by simp [Diagram.allows, hw], by simp [hw]⟩
  · exact idle_arg _ _

theorem Ord.start (h : Ord g fs fr d) (ht : e.trace = d.trace ++ [.apiReset]) (hs : isIn none (fs e.snd))
    (hr : isIn none (fr e.rep)) : Ord g fs fr e := by
  have e2 : g.last.after (d.trace ++ [.apiReset]) = none := by rw [Observer.after_snoc]; simp
  exact ⟨by rw [ht]; exact always_snoc.mpr ⟨h.ord, rfl⟩, by rw [ht, e2]; exact hs, by rw [ht, e2]; exact hr⟩

/-- Payload. -/
theorem Ord.pay (h : Ord g fs fr d) (bs : List Byte) (ht : e.trace = d.trace ++ [.pay bs])
    (hok : g.allows (g.last.after d.trace) (.pay bs) = true)
    (hs : isIn (some payload) (fs e.snd)) (hr : isIn (some payload) (fr e.rep)) : Ord g fs fr e := by
  have e2 : g.last.after (d.trace ++ [.pay bs]) = some payload := by rw [Observer.after_snoc]; simp
  exact ⟨by rw [ht]; exact always_snoc.mpr ⟨h.ord, hok⟩, by rw [ht, e2]; exact hs, by rw [ht, e2]; exact hr⟩

/-- Inclusion of lists, `none` is everything. -/
def subOf : Option (List (Option (List Byte))) → Option (List (Option (List Byte))) → Bool
  | _, none => true
  | none, some _ => false
  | some a, some b => a.all fun x => decide (x ∈ b)

theorem subOf_isIn {a b : Option (List (Option (List Byte)))} (h : subOf a b = true) {s : Option (List Byte)}
    (hs : isIn s a) : isIn s b := by
  cases b with
  | none => trivial
  | some b =>
    cases a with
    | none => simp [subOf] at h
    | some a =>
      simp only [subOf, List.all_eq_true, decide_eq_true_eq] at h
      exact h s hs

/-- A turn that keeps to the diagram, where `L` is what may have come before. -/
def okMove (g : Diagram) (fs : S → Option (List (Option (List Byte)))) (fr : R → Option (List (Option (List Byte))))
    (L : Option (List (Option (List Byte)))) : Kind × S × R → Bool
  | (.cmd w _, s, r) =>
    !decide (w ∈ g.status) && (decide (w ∈ g.any) || subOf L (some (g.before w))) &&
      subOf (some [some w]) (fs s) && subOf (some [some w]) (fr r)
  | (.pay, s, r) =>
    subOf L (some (g.before payload)) && subOf (some [some payload]) (fs s) && subOf (some [some payload]) (fr r)
  | (_, s, r) => subOf L (fs s) && subOf L (fr r)

theorem Ord.moves {l : List (Kind × S × R)} (h : Ord g fs fr d) (hm : Moves l d e)
    (hl : ∀ m ∈ l, okMove g fs fr (fs d.snd) m = true) : Ord g fs fr e := by
  obtain ⟨k, hk, hs⟩ := hm
  have ho := hl _ hk
  cases k with
  | quiet =>
    simp only [okMove, Bool.and_eq_true] at ho
    exact h.more [] (by simp) (by rw [show e.trace = d.trace from hs]; simp) (subOf_isIn ho.1 h.snd) (subOf_isIn ho.2 h.snd)
  | data =>
    simp only [okMove, Bool.and_eq_true] at ho
    obtain ⟨bs, hs⟩ := hs
    exact h.more [.data bs] (by simp [idle, Diagram.allows]) hs (subOf_isIn ho.1 h.snd) (subOf_isIn ho.2 h.snd)
  | pay =>
    simp only [okMove, Bool.and_eq_true] at ho
    obtain ⟨bs, hs⟩ := hs
    refine h.pay bs hs ?_ (subOf_isIn ho.1.2 (by simp [isIn])) (subOf_isIn ho.2 (by simp [isIn]))
    have : isIn _ (some _) := subOf_isIn ho.1.1 h.snd
    exact decide_eq_true this
  | cmd w text =>
    simp only [okMove, Bool.and_eq_true, Bool.not_eq_true', decide_eq_false_iff_not, Bool.or_eq_true,
      decide_eq_true_eq] at ho
    obtain ⟨gt, rest, hs, ha, _⟩ := hs
    refine h.cmd w gt rest ?_ hs ho.1.1.1 ?_ (subOf_isIn ho.1.2 (by simp [isIn])) (subOf_isIn ho.2 (by simp [isIn]))
    · intro x hx
      have := List.all_eq_true.mp ha x hx
      cases x <;> simp [isArg] at this
      exact ⟨_, _, rfl⟩
    · rcases ho.1.1.2 with x | x
      · simp [Diagram.allows, x]
      · have : isIn _ (some _) := subOf_isIn x h.snd
        have : g.last.after d.trace ∈ g.before w := this
        simp only [Diagram.allows, this, decide_true, Bool.or_true]
end

namespace Sim7x00

/-- The last command in every state. -/
def sndLast : Snd → Option (List (Option (List Byte)))
  | .notConnected => some [none, some b!"AT+CRESET", some b!"AT+NETCLOSE", some b!"AT+CIPMODE=0", some b!"AT+NETOPEN"]
  | .connecting => some [none, some b!"AT+CRESET", some b!"AT+NETCLOSE", some b!"AT+CIPMODE=0", some b!"AT+NETOPEN"]
  | .sendCgsockcont => some [some b!"ATE0"]
  | .sendCsocksetpn => some [some b!"AT+CGSOCKCONT=1,\"IP\",\""]
  | .sendCipmode => some [some b!"AT+CSOCKSETPN=1"]
  | .sendNetopen => some [some b!"AT+CIPMODE=0", some b!"AT+NETOPEN"]
  | .sendCiprxget => some [some b!"AT+NETOPEN"]
  | .sendDnsQuery => some [some b!"AT+CIPRXGET=1"]
  | .sendCipopen => some [some b!"AT+CDNSGIP=\"", some b!"AT+CIPRXGET=4,0", some b!"AT+CIPRXGET=2,0,"]
  | .finalizeConnect => some [some b!"AT+CIPOPEN"]
  | .connected => some [some b!"AT+CIPOPEN", some payload, some b!"AT+CIPRXGET=4,0", some b!"AT+CIPRXGET=2,0,"]
  | .sendData => some [some b!"AT+CIPSEND="]
  | .sendCiprxget4 => some [some b!"AT+CIPOPEN", some payload, some b!"AT+CIPRXGET=4,0", some b!"AT+CIPRXGET=2,0,"]
  | .sendCiprxget2 => some [some b!"AT+CIPRXGET=4,0", some b!"AT+CIPRXGET=2,0,"]
  | .waitReceive => some [some b!"AT+CIPRXGET=2,0,"]
  | .receiving => some [some b!"AT+CIPRXGET=2,0,"]
  | .ipUnconnected => some [some b!"AT+CIPRXGET=4,0", some b!"AT+CIPRXGET=2,0,"]
  | .sendNetclose => some [some b!"AT+CIPOPEN", some payload, some b!"AT+CIPRXGET=4,0", some b!"AT+CIPRXGET=2,0,"]
  | .finalizeDisconnect => some [some b!"AT+NETCLOSE", some b!"AT+CIPMODE=0", some b!"AT+NETOPEN"]
  | .serialError => none
  | .dnsError => none

/-- The last command while a reply is awaited. -/
def repLast : Rep → Option (List (Option (List Byte)))
  | .netopen => some [some b!"AT+NETOPEN"]
  | .ciprxget2 => some [some b!"AT+CIPRXGET=2,0,"]
  | _ => none

abbrev OrdI : D → Prop := Ord diagramSim7x00 sndLast repLast

theorem moves_ok (d : D) : ∀ m ∈ moves d, okMove diagramSim7x00 sndLast repLast (sndLast d.snd) m = true := by
  cases hs : d.snd
  all_goals
    simp only [moves, hs, List.forall_mem_cons, List.not_mem_nil, false_imp_iff, implies_true, and_true]
    repeat' apply And.intro
    all_goals rfl

/-- Where a line may lead. -/
def hears (s : Snd) (r : Rep) : List (Snd × Rep) :=
  [(s, r), (s, .okReply)] ++
    match r with
    | .netopen => [(.sendNetopen, .okReply)]
    | .ciprxget2 => [(.receiving, .okReply)]
    | _ => []

theorem parseLine_hears (p : Platform) (d : D) :
    ((parseLine p d).1.snd, (parseLine p d).1.rep) ∈ hears d.snd d.rep := by
  unfold parseLine
  dsimp only
  have hw : (parseWait d).1.snd = d.snd ∧ (parseWait d).1.rep = d.rep := by
    unfold parseWait
    (repeat' split) <;> exact ⟨rfl, rfl⟩
  have hc : ∀ e : D, (checkState e).snd = e.snd ∧ (checkState e).rep = e.rep := by
    intro e; unfold checkState; split <;> simp
  split
  · rw [hw.1, hw.2]; simp [hears]
  · rw [← hw.1, ← hw.2]
    generalize (parseWait d).1 = e
    have hp : ((parseReply p e).1.snd, (parseReply p e).1.rep) ∈ hears e.snd e.rep := by
      unfold parseReply
      split <;> (try dsimp only) <;> (repeat' split) <;> simp_all [hears]
    split
    · exact hp
    · dsimp only; rw [(hc _).1, (hc _).2]; exact hp

theorem hears_ok {s : Snd} {r : Rep} {q : Snd × Rep} (hq : q ∈ hears s r) {v : Option (List Byte)}
    (hs : isIn v (sndLast s)) (hr : isIn v (repLast r)) : isIn v (sndLast q.1) ∧ isIn v (repLast q.2) := by
  simp only [hears, List.cons_append, List.nil_append, List.mem_cons] at hq
  rcases hq with rfl | rfl | hq
  · exact ⟨hs, hr⟩
  · exact ⟨hs, trivial⟩
  · cases r <;> simp at hq <;> subst hq
    · exact ⟨subOf_isIn (b := sndLast .sendNetopen) (by decide) hr, trivial⟩
    · exact ⟨subOf_isIn (b := sndLast .receiving) (by decide) hr, trivial⟩

theorem ord_sections (p : Platform) : Sections p OrdI where
  fail d h _ := h.more [] (by simp) (by simp) trivial h.rep
  reset d h _ _ := by
    unfold handleReset
    dsimp only
    have h1 : OrdI d.flushSer := h.note .flush ⟨fun _ => rfl, fun _ => rfl⟩ rfl rfl rfl
    refine h1.cmd b!"AT+CRESET" _ [.arg lineEnd _] (by simp) (by simp only [Dev.arg_trace, Dev.cmdN_trace]; simp; exact ⟨rfl, rfl⟩)
      (by decide) rfl ?_ trivial
    simp only [arg_snd, cmdN_snd]
    split <;> exact subOf_isIn (a := some [some b!"AT+CRESET"]) (by decide) (by simp [isIn])
  line d s m l _ h _ _ _ _ := by
    have := hears_ok (parseLine_hears p (d.gotLine s m d.rep l)) (v := diagramSim7x00.last.after d.trace) h.snd h.rep
    exact h.more [.line l] (by simp [idle, Diagram.allows]) (by rw [parseLine_trace]) this.1 this.2
  drop d h _ _ _ := h.note _ ⟨fun _ => rfl, fun _ => rfl⟩ rfl rfl rfl
  csq d h _ _ _ _ _ _ := h.ask (w := b!"AT+CSQ") (by simp [sendCommand, Dev.arg_trace, Dev.cmd_trace]; exact ⟨rfl, rfl⟩)
    (by decide) (by simp) rfl
  ident d h _ _ _ _ hq := by
    obtain ⟨v, hm, g1, g2, ht⟩ := SimDev.sendIDRequest_true hq
    refine h.ask (w := v) (g1 := g1) (g2 := g2) (by simp [ht]) ?_ (by simp) rfl
    simp only [SimDev.idCommands, iccidCommand, List.mem_cons, List.not_mem_nil, or_false] at hm
    rcases hm with rfl | rfl | rfl | rfl | rfl <;> decide
  identNone d h hq := h.same (SimDev.sendIDRequest_false hq).1 (by simp) (by simp)
  act d h _ _ hp _ := h.moves (act_moves hp) (moves_ok d)

theorem ord_own : Own OrdI where
  reset d h := h.start rfl (by simp [SimDev.resetStates, isIn, sndLast]) trivial
  ext _ _ h := h.same rfl rfl rfl
  lock _ h _ _ := h.same rfl rfl rfl
  unlock _ h := h.same rfl rfl rfl

end Sim7x00

namespace Sim800

/-- The last command in every state. -/
def sndLast : Snd → Option (List (Option (List Byte)))
  | .notConnected => none
  | .connecting => none
  | .sendCiprxget => some [some b!"ATE0"]
  | .sendCipmux => some [some b!"AT+CIPRXGET=1"]
  | .sendCipsprt => some []
  | .sendCstt => some [some b!"AT+CIPMUX=1"]
  | .sendCiicr => some [some b!"AT+CSTT=\""]
  | .sendCifsr => some [some b!"AT+CIICR"]
  | .sendDnsQuery => some [some b!"AT+CIFSR"]
  | .sendCipstart => some [some b!"AT+CDNSGIP=\"", some b!"AT+CIPRXGET=4,0", some b!"AT+CIPRXGET=2,0,"]
  | .finalizeConnect => some [some b!"AT+CIPSTART"]
  | .connected => some [some b!"AT+CIPSTART", some payload, some b!"AT+CIPRXGET=4,0", some b!"AT+CIPRXGET=2,0,"]
  | .sendData => some [some b!"AT+CIPSEND="]
  | .sendCiprxget4 => some [some b!"AT+CIPSTART", some payload, some b!"AT+CIPRXGET=4,0", some b!"AT+CIPRXGET=2,0,"]
  | .sendCiprxget2 => some [some b!"AT+CIPRXGET=4,0", some b!"AT+CIPRXGET=2,0,"]
  | .waitReceive => some [some b!"AT+CIPRXGET=2,0,"]
  | .receiving => some [some b!"AT+CIPRXGET=2,0,"]
  | .ipUnconnected => some [some b!"AT+CIPRXGET=4,0", some b!"AT+CIPRXGET=2,0,"]
  | .sendCipclose => some [some b!"AT+CIPSTART", some payload, some b!"AT+CIPRXGET=4,0", some b!"AT+CIPRXGET=2,0,"]
  | .sendCipshut => some [some b!"AT+CSTT=\"", some b!"AT+CIICR", some b!"AT+CIFSR", some b!"AT+CDNSGIP=\"", some b!"AT+CIPSTART", some payload, some b!"AT+CIPSEND=", some b!"AT+CIPRXGET=4,0", some b!"AT+CIPRXGET=2,0,", some b!"AT+CIPCLOSE=0"]
  | .finalizeDisconnect => some [some b!"AT+CIPSHUT", some b!"AT+CIPRXGET=4,0", some b!"AT+CIPRXGET=2,0,"]
  | .serialError => none

/-- The last command while a reply is awaited. -/
def repLast : Rep → Option (List (Option (List Byte)))
  | .ciprxget2 => some [some b!"AT+CIPRXGET=2,0,"]
  | .cipstart => some [some b!"AT+CIPSTART"]
  | _ => none

abbrev OrdI : D → Prop := Ord diagramSim800 sndLast repLast

theorem moves_ok (d : D) : ∀ m ∈ moves d, okMove diagramSim800 sndLast repLast (sndLast d.snd) m = true := by
  cases hs : d.snd
  all_goals
    simp only [moves, hs, List.forall_mem_cons, List.not_mem_nil, false_imp_iff, implies_true, and_true]
    repeat' apply And.intro
    all_goals rfl

/-- Where a line may lead. -/
def hears (s : Snd) (r : Rep) : List (Snd × Rep) :=
  [(s, r), (s, .okReply)] ++
    match r with
    | .cipstart => [(.sendCipshut, .okReply)]
    | .ciprxget2 => [(.receiving, .okReply)]
    | _ => []

theorem parseLine_hears (p : Platform) (d : D) :
    ((parseLine p d).1.snd, (parseLine p d).1.rep) ∈ hears d.snd d.rep := by
  unfold parseLine
  have hw : (parseWait d).snd = d.snd ∧ (parseWait d).rep = d.rep := by
    unfold parseWait
    (repeat' split) <;> exact ⟨rfl, rfl⟩
  split
  · simp [hears]
  · dsimp only
    rw [← hw.1, ← hw.2]
    generalize (parseWait d) = e
    have hc : ∀ e : D, (checkState e).snd = e.snd ∧ (checkState e).rep = e.rep := by
      intro e; unfold checkState; (repeat' split) <;> simp
    rw [(hc _).1, (hc _).2]
    unfold parseReply
    split <;> (try unfold parseMac) <;> (try dsimp only) <;> (repeat' split) <;> simp_all [hears, handleDisconnect]

theorem hears_ok {s : Snd} {r : Rep} {q : Snd × Rep} (hq : q ∈ hears s r) {v : Option (List Byte)}
    (hs : isIn v (sndLast s)) (hr : isIn v (repLast r)) : isIn v (sndLast q.1) ∧ isIn v (repLast q.2) := by
  simp only [hears, List.cons_append, List.nil_append, List.mem_cons] at hq
  rcases hq with rfl | rfl | hq
  · exact ⟨hs, hr⟩
  · exact ⟨hs, trivial⟩
  · cases r <;> simp at hq <;> subst hq
    · exact ⟨subOf_isIn (b := sndLast .sendCipshut) (by decide) hr, trivial⟩
    · exact ⟨subOf_isIn (b := sndLast .receiving) (by decide) hr, trivial⟩

theorem handleReset_ord (d : D) : ∃ more, (handleReset d).trace = d.trace ++ more ∧
    (∀ x ∈ more, x = .flush ∨ x = .apiConnect) ∧
    (handleReset d).snd = (if d.snd.idx < Snd.sendCiicr.idx ∨ d.snd.idx > Snd.sendCipshut.idx then Snd.notConnected
      else Snd.sendCipshut) ∧ (handleReset d).rep = .okReply := by
  unfold handleReset
  dsimp only
  have e : (flushSer d).snd = d.snd := rfl
  rw [e]
  generalize (if d.snd.idx < Snd.sendCiicr.idx ∨ d.snd.idx > Snd.sendCipshut.idx then Snd.notConnected
      else Snd.sendCipshut) = q
  split
  · unfold SimDev.connect ipConnect
    dsimp only
    (repeat' split) <;> exact ⟨[.flush], rfl, by simp, rfl, rfl⟩
  · exact ⟨[.flush], rfl, by simp, rfl, rfl⟩

theorem ord_sections (p : Platform) : Sections p OrdI where
  fail d h _ := h.more [] (by simp) (by simp) trivial h.rep
  reset d h _ _ := by
    obtain ⟨more, ht, hm, hs, hr⟩ := handleReset_ord d
    refine h.more more ?_ ht ?_ (by rw [hr]; trivial)
    · intro x hx
      rcases hm x hx with rfl | rfl <;> exact ⟨fun _ => rfl, fun _ => rfl⟩
    · rw [hs]
      split
      · trivial
      · rename_i hn
        refine subOf_isIn ?_ h.snd
        revert hn
        cases d.snd <;> decide
  line d s m l _ h _ _ _ _ := by
    have := hears_ok (parseLine_hears p (d.gotLine s m d.rep l)) (v := diagramSim800.last.after d.trace) h.snd h.rep
    exact h.more [.line l] (by simp [idle, Diagram.allows]) (by rw [parseLine_trace]) this.1 this.2
  drop d h _ _ _ := h.note _ ⟨fun _ => rfl, fun _ => rfl⟩ rfl rfl rfl
  csq d h _ _ _ _ _ _ := h.ask (w := b!"AT+CSQ") (by simp [sendCommand, Dev.arg_trace, Dev.cmd_trace]; exact ⟨rfl, rfl⟩)
    (by decide) (by simp) rfl
  ident d h _ _ _ _ hq := by
    obtain ⟨v, hm, g1, g2, ht⟩ := SimDev.sendIDRequest_true hq
    refine h.ask (w := v) (g1 := g1) (g2 := g2) (by simp [ht]) ?_ (by simp) rfl
    simp only [SimDev.idCommands, iccidCommand, List.mem_cons, List.not_mem_nil, or_false] at hm
    rcases hm with rfl | rfl | rfl | rfl | rfl <;> decide
  identNone d h hq := h.same (SimDev.sendIDRequest_false hq).1 (by simp) (by simp)
  act d h _ _ hp _ := h.moves (act_moves hp) (moves_ok d)

theorem ord_own : Own OrdI where
  reset d h := h.start rfl (trivial) trivial
  ext _ _ h := h.same rfl rfl rfl
  lock _ h _ _ := h.same rfl rfl rfl
  unlock _ h := h.same rfl rfl rfl

end Sim800

namespace Espressif

/-- The last command in every state. -/
def sndLast : Snd → Option (List (Option (List Byte)))
  | .notConnected => none
  | .connecting => none
  | .sendCwmode => some [some b!"ATE0"]
  | .sendCwjap => some [some b!"AT+CWMODE=1"]
  | .sendCipmux => some [some b!"AT+CWJAP=\""]
  | .sendCiprecvmode => some [some b!"AT+CIPMUX=0"]
  | .sendCipmode => some [some b!"AT+CIPRECVMODE=1", some b!"AT+CIPRECVMODE=0"]
  | .sendCipstart => some [some b!"AT+CIPMODE=0"]
  | .finalizeConnect => some [some b!"AT+CIPSTART"]
  | .connected => some [some b!"AT+CIPSTART", some payload, some b!"AT+CIPRECVDATA="]
  | .sendDataState => some [some b!"AT+CIPSEND="]
  | .sendCiprecvdata => some [some b!"AT+CIPSTART", some payload, some b!"AT+CIPRECVDATA="]
  | .waitReceive => some [some b!"AT+CIPSTART", some payload, some b!"AT+CIPRECVDATA="]
  | .receiving => some [some b!"AT+CIPSTART", some payload, some b!"AT+CIPRECVDATA="]
  | .sendCipclose => some [some b!"AT+CIPSTART", some payload, some b!"AT+CIPRECVDATA="]
  | .sendCwqap => some [some b!"AT+CIPSTART", some payload, some b!"AT+CIPRECVDATA=", some b!"AT+CIPCLOSE"]
  | .finalizeDisconnect => none
  | .serialError => none

/-- The last command while a reply is awaited. -/
def repLast : Rep → Option (List (Option (List Byte)))
  | .waitCiprecvdata => some [some b!"AT+CIPRECVDATA="]
  | .parseStateCiprecvdata => some [some b!"AT+CIPRECVDATA="]
  | _ => none

abbrev OrdI : D → Prop := Ord diagramEspressif sndLast repLast

theorem moves_ok (d : D) : ∀ m ∈ moves d, okMove diagramEspressif sndLast repLast (sndLast d.snd) m = true := by
  cases hs : d.snd
  case sendCiprecvmode =>
    simp only [moves, hs, List.forall_mem_cons, List.not_mem_nil, false_imp_iff, implies_true, and_true]
    split <;> rfl
  all_goals
    simp only [moves, hs, List.forall_mem_cons, List.not_mem_nil, false_imp_iff, implies_true, and_true]
    repeat' apply And.intro
    all_goals rfl

/-- Where a line may lead. -/
def hears (s : Snd) (r : Rep) : List (Snd × Rep) :=
  [(s, r), (s, .okReply), (.finalizeDisconnect, r), (.finalizeDisconnect, .okReply)] ++
    match r with
    | .parseStateCiprecvdata => [(.receiving, .okReply)]
    | _ => []

theorem parseLine_hears (p : Platform) (d : D) :
    ((parseLine p d).1.snd, (parseLine p d).1.rep) ∈ hears d.snd d.rep := by
  unfold parseLine
  have hw : (parseWait (parseSendFail d)).snd = d.snd ∧ (parseWait (parseSendFail d)).rep = d.rep := by
    unfold parseWait parseSendFail
    (repeat' split) <;> exact ⟨rfl, rfl⟩
  split
  · simp [hears]
  · dsimp only
    rw [← hw.1, ← hw.2]
    generalize (parseWait (parseSendFail d)) = e
    have hp : ((parseReply p e).snd, (parseReply p e).rep) ∈ hears e.snd e.rep ∧
        ∀ x, ((parseReply p e).snd, (parseReply p e).rep) ∈ hears e.snd e.rep →
          (x = (parseReply p e).rep → (.finalizeDisconnect, x) ∈ hears e.snd e.rep) := by
      unfold parseReply
      split <;> (try dsimp only) <;> (repeat' split) <;> simp_all [hears]
    unfold checkState
    (repeat' split) <;> first | exact hp.1 | exact hp.2 _ hp.1 rfl

theorem hears_ok {s : Snd} {r : Rep} {q : Snd × Rep} (hq : q ∈ hears s r) {v : Option (List Byte)}
    (hs : isIn v (sndLast s)) (hr : isIn v (repLast r)) : isIn v (sndLast q.1) ∧ isIn v (repLast q.2) := by
  simp only [hears, List.cons_append, List.nil_append, List.mem_cons] at hq
  rcases hq with rfl | rfl | rfl | rfl | hq
  · exact ⟨hs, hr⟩
  · exact ⟨hs, trivial⟩
  · exact ⟨trivial, hr⟩
  · exact ⟨trivial, trivial⟩
  · cases r <;> simp at hq <;> subst hq
    exact ⟨subOf_isIn (b := sndLast .receiving) (by decide) hr, trivial⟩

theorem ord_sections (p : Platform) : Sections p OrdI where
  fail d h _ := h.more [] (by simp) (by simp) trivial h.rep
  reset d h _ := by
    unfold handleReset
    dsimp only
    have h1 : OrdI d.flushSer := h.note .flush ⟨fun _ => rfl, fun _ => rfl⟩ rfl rfl rfl
    refine h1.cmd b!"AT+RST" _ [.arg lineEnd _] (by simp) (by simp only [Dev.arg_trace, Dev.cmd_trace]; simp; exact ⟨rfl, rfl⟩)
      (by decide) rfl ?_ trivial
    simp only [arg_snd, cmd_snd]
    split <;> trivial
  line d s m l r _ h _ _ ha _ _ _ := by
    have h2 : isIn (diagramEspressif.last.after d.trace) (repLast r) := by
      rcases ha with x | ⟨x, y, _⟩
      · rw [x]; exact h.rep
      · rw [y]; have := h.rep; rw [x] at this; exact this
    have := hears_ok (parseLine_hears p (d.gotLine s m r l)) (v := diagramEspressif.last.after d.trace) h.snd h2
    exact h.more [.line l] (by simp [idle, Diagram.allows]) (by rw [parseLine_trace]) this.1 this.2
  drop d h _ _ _ := h.note _ ⟨fun _ => rfl, fun _ => rfl⟩ rfl rfl rfl
  csq d h _ _ _ _ _ _ := h.ask (w := b!"AT+CWJAP?") (by simp [sendCommand, Dev.arg_trace, Dev.cmd_trace]; exact ⟨rfl, rfl⟩)
    (by decide) (by simp) rfl
  mac d h _ _ _ _ _ _ := h.ask (w := b!"AT+CIPSTAMAC?") (by simp [sendCommand, Dev.arg_trace, Dev.cmd_trace]; exact ⟨rfl, rfl⟩)
    (by decide) (by simp) rfl
  act d h _ _ hp _ := h.moves (act_moves hp) (moves_ok d)

theorem ord_own : Own OrdI where
  reset d h := h.start rfl (trivial) trivial
  ext _ _ h := h.same rfl rfl rfl
  ub _ h := h.same rfl rfl rfl

end Espressif

namespace CC1352P7

/-- The last command in every state. -/
def sndLast : Snd → Option (List (Option (List Byte)))
  | .notConnected => some [none, some b!"AT+CIPCLOSE", some b!"AT+CIPSTART", some payload, some b!"AT+CIPRECVDATA="]
  | .connecting => some [none, some b!"AT+CIPCLOSE", some b!"AT+CIPSTART", some payload, some b!"AT+CIPRECVDATA="]
  | .sendCipstart => some [some b!"ATE0"]
  | .finalizeConnect => some [some b!"AT+CIPSTART"]
  | .connected => some [some b!"AT+CIPSTART", some payload, some b!"AT+CIPRECVDATA="]
  | .sendDataState => some [some b!"AT+CIPSEND="]
  | .sendCiprecvdata => some [some b!"AT+CIPSTART", some payload, some b!"AT+CIPRECVDATA="]
  | .waitReceive => some [some b!"AT+CIPRECVDATA="]
  | .receiving => some [some b!"AT+CIPRECVDATA="]
  | .sendCipclose => none
  | .finalizeDisconnect => some [some b!"AT+CIPCLOSE", some b!"AT+CIPSTART", some payload, some b!"AT+CIPRECVDATA="]
  | .serialError => none

/-- The last command while a reply is awaited. -/
def repLast : Rep → Option (List (Option (List Byte)))
  | .parseStateCiprecvdata => some [some b!"AT+CIPRECVDATA="]
  | _ => none

abbrev OrdI : D → Prop := Ord diagramCC1352P7 sndLast repLast

theorem moves_ok (d : D) : ∀ m ∈ moves d, okMove diagramCC1352P7 sndLast repLast (sndLast d.snd) m = true := by
  cases hs : d.snd
  all_goals
    simp only [moves, hs, List.forall_mem_cons, List.not_mem_nil, false_imp_iff, implies_true, and_true]
    repeat' apply And.intro
    all_goals rfl

/-- Where a line may lead. -/
def hears (s : Snd) (r : Rep) : List (Snd × Rep) :=
  [(s, r), (s, .okReply)] ++
    match r with
    | .parseStateCiprecvdata => [(.receiving, .okReply)]
    | _ => []

theorem parseLine_hears (p : Platform) (d : D) :
    ((parseLine p d).1.snd, (parseLine p d).1.rep) ∈ hears d.snd d.rep := by
  unfold parseLine
  have hw : (parseWait d).snd = d.snd ∧ (parseWait d).rep = d.rep := by
    unfold parseWait
    (repeat' split) <;> exact ⟨rfl, rfl⟩
  split
  · simp [hears]
  · dsimp only
    rw [← hw.1, ← hw.2]
    generalize (parseWait d) = e
    have hc : ∀ e : D, (checkState p e).snd = e.snd ∧ (checkState p e).rep = e.rep := by
      intro e; unfold checkState; (repeat' split) <;> simp
    rw [(hc _).1, (hc _).2]
    unfold parseReply
    split <;> (try unfold parseMac) <;> (try dsimp only) <;> (repeat' split) <;> simp_all [hears, handleDisconnect]

theorem hears_ok {s : Snd} {r : Rep} {q : Snd × Rep} (hq : q ∈ hears s r) {v : Option (List Byte)}
    (hs : isIn v (sndLast s)) (hr : isIn v (repLast r)) : isIn v (sndLast q.1) ∧ isIn v (repLast q.2) := by
  simp only [hears, List.cons_append, List.nil_append, List.mem_cons] at hq
  rcases hq with rfl | rfl | hq
  · exact ⟨hs, hr⟩
  · exact ⟨hs, trivial⟩
  · cases r <;> simp at hq <;> subst hq
    exact ⟨subOf_isIn (b := sndLast .receiving) (by decide) hr, trivial⟩

theorem handleReset_ord (d : D) : ∃ more, (handleReset d).trace = d.trace ++ more ∧
    (∀ x ∈ more, x = .flush ∨ x = .apiConnect) ∧
    (handleReset d).snd = .sendCipclose ∧ (handleReset d).rep = .okReply := by
  unfold handleReset
  dsimp only
  split
  · unfold ipConnect
    dsimp only
    (repeat' split) <;> exact ⟨[.flush], rfl, by simp, rfl, rfl⟩
  · exact ⟨[.flush], rfl, by simp, rfl, rfl⟩

theorem ord_sections (p : Platform) : Sections p OrdI where
  fail d h _ := h.more [] (by simp) (by simp) trivial h.rep
  reset d h _ := by
    obtain ⟨more, ht, hm, hs, hr⟩ := handleReset_ord d
    refine h.more more ?_ ht (by rw [hs]; trivial) (by rw [hr]; trivial)
    intro x hx
    rcases hm x hx with rfl | rfl <;> exact ⟨fun _ => rfl, fun _ => rfl⟩
  line d s m l _ h _ _ _ _ _ := by
    have := hears_ok (parseLine_hears p (d.gotLine s m d.rep l)) (v := diagramCC1352P7.last.after d.trace) h.snd h.rep
    exact h.more [.line l] (by simp [idle, Diagram.allows]) (by rw [parseLine_trace]) this.1 this.2
  drop d h _ _ _ := h.note _ ⟨fun _ => rfl, fun _ => rfl⟩ rfl rfl rfl
  csq d h _ _ _ _ _ _ := h.ask (w := b!"AT+CSQ") (by simp [sendCommand, Dev.arg_trace, Dev.cmd_trace]; exact ⟨rfl, rfl⟩)
    (by decide) (by simp) rfl
  mac d h _ _ _ _ _ _ := h.ask (w := b!"AT+CIPSTAMAC") (by simp [sendCommand, Dev.arg_trace, Dev.cmd_trace]; exact ⟨rfl, rfl⟩)
    (by decide) (by simp) rfl
  act d h _ _ hp _ := h.moves (act_moves hp) (moves_ok d)

theorem ord_own : Own OrdI where
  reset d h := h.start rfl (by simp [resetStates, isIn, sndLast]) trivial
  ext _ _ h := h.same rfl rfl rfl

end CC1352P7

end Verif
