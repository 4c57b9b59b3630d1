import Verif.Lemmas.Phases
import Verif.Lemmas.Moves
import Verif.Lemmas.Order
import Verif.Spec.Quit

/-!
# A request to disconnect is followed

After `disconnect()` at most one attempt to open a connection is made before a command to close is sent.
-/

namespace Verif

open Dev Spec

/-- `new`: what happened since. Either a command to close was sent; or the request is pending and no
connection was opened; or the request is pending and the driver is past the opening (`late`); or the
request was consumed and the driver is closing (`over`). -/
def Quits (opn : List Byte) (cls : List (List Byte)) (late : S → Bool) (over : S → R → Bool)
    (base : List Ev) (d : Dev S R X) : Prop :=
  ∃ new, d.trace = base ++ new ∧ (anyOf cls new = true ∨
    (d.disconnectPending = true ∧ times opn new = 0) ∨
    (times opn new ≤ 1 ∧ (d.disconnectPending = true ∧ late d.snd = true ∨ over d.snd d.rep = true)))

section
variable {opn : List Byte} {cls : List (List Byte)} {late : S → Bool} {over : S → R → Bool}
  {base : List Ev} {d e : Dev S R X}

/-- Something was logged that does not open a connection. -/
theorem Quits.more (h : Quits opn cls late over base d) (new : List Ev) (ht : e.trace = d.trace ++ new)
    (hn : times opn new = 0)
    (hp : d.disconnectPending = true → e.disconnectPending = true ∨ over e.snd e.rep = true)
    (hl : d.disconnectPending = true → late d.snd = true → late e.snd = true ∨ over e.snd e.rep = true)
    (ho : over d.snd d.rep = true → over e.snd e.rep = true) : Quits opn cls late over base e := by
  obtain ⟨old, h1, h2⟩ := h
  refine ⟨old ++ new, by rw [ht, h1]; simp, ?_⟩
  rw [anyOf_append, times_append, hn]
  rcases h2 with h2 | ⟨h2, h3⟩ | ⟨h3, h2⟩
  · left; simp [h2]
  · rcases hp h2 with h4 | h4
    · right; left; exact ⟨h4, h3⟩
    · right; right; exact ⟨by omega, .inr h4⟩
  · right; right
    refine ⟨h3, ?_⟩
    rcases h2 with ⟨h2, h4⟩ | h2
    · rcases hp h2 with h5 | h5
      · rcases hl h2 h4 with h6 | h6
        · exact .inl ⟨h5, h6⟩
        · exact .inr h6
      · exact .inr h5
    · exact .inr (ho h2)

theorem Quits.same (h : Quits opn cls late over base d) (ht : e.trace = d.trace)
    (hp : e.disconnectPending = d.disconnectPending) (hs : e.snd = d.snd) (hr : e.rep = d.rep) :
    Quits opn cls late over base e :=
  h.more [] (by simp [ht]) rfl (fun h => .inl (by rw [hp]; exact h)) (fun _ h => .inl (by rw [hs]; exact h))
    (fun h => by rw [hs, hr]; exact h)

theorem Quits.note (h : Quits opn cls late over base d) (ev : Ev) (hev : isCmdOf opn ev = false)
    (ht : e.trace = d.trace ++ [ev])
    (hp : d.disconnectPending = true → e.disconnectPending = true) (hs : e.snd = d.snd) (hr : e.rep = d.rep) :
    Quits opn cls late over base e :=
  h.more [ev] ht (by simp [times, hev]) (fun h => .inl (hp h)) (fun _ h => .inl (by rw [hs]; exact h))
    (fun h => by rw [hs, hr]; exact h)

theorem Quits.calls : Calls (S := S) (R := R) (X := X) (Quits opn cls late over base) where
  io _ _ _ _ _ h := h.same rfl rfl rfl rfl
  isOpen _ _ h := h.same rfl rfl rfl rfl
  conn _ h _ _ := h.note _ rfl rfl (fun h => h) rfl rfl
  disc0 _ h _ := h.note _ rfl rfl (fun h => h) rfl rfl
  disc _ h _ := h.note _ rfl rfl (fun _ => rfl) rfl rfl
  write0 _ h _ := h.note _ rfl rfl (fun h => h) rfl rfl
  write _ _ h _ := h.note _ rfl rfl (fun h => h) rfl rfl
  read _ _ h := h.note _ rfl rfl (fun h => h) rfl rfl
  rssi _ h := h.same rfl rfl rfl rfl
  userTx _ _ _ _ h := h.note _ rfl rfl (fun h => h) rfl rfl
  userRx _ _ _ _ h := h.note _ rfl rfl (fun h => h) rfl rfl
  host _ _ _ _ h := h.same rfl rfl rfl rfl

/-- The command of a turn. -/
def Kind.word : Kind → Option (List Byte)
  | .cmd w _ => some w
  | _ => none

theorem times_args {l : List Ev} (h : l.all isArg = true) : times opn l = 0 := by
  induction l with
  | nil => rfl
  | cons x l ih =>
    simp only [List.all_cons, Bool.and_eq_true] at h
    have := ih h.2
    cases x <;> simp_all [isArg, times, isCmdOf]

theorem says_times {k : Kind} (h : Says k d e) : ∃ new, e.trace = d.trace ++ new ∧
    times opn new = (if k.word = some opn then 1 else 0) ∧
    (∀ w ∈ cls, k.word = some w → anyOf cls new = true) := by
  cases k with
  | quiet => exact ⟨[], by simpa [Says] using h, rfl, fun w _ h => by simp [Kind.word] at h⟩
  | pay =>
    obtain ⟨bs, h⟩ := h
    exact ⟨_, h, rfl, fun w _ h => by simp [Kind.word] at h⟩
  | data =>
    obtain ⟨bs, h⟩ := h
    exact ⟨_, h, rfl, fun w _ h => by simp [Kind.word] at h⟩
  | cmd w t =>
    obtain ⟨g, rest, h, ha, _⟩ := h
    refine ⟨_, h, ?_, ?_⟩
    · have := times_args (opn := opn) ha
      unfold times at *
      by_cases hw : w = opn <;> simp [Kind.word, isCmdOf, List.filter_cons, hw, this]
    · intro v hv hw
      simp only [Kind.word, Option.some.injEq] at hw
      subst hw
      simp only [anyOf, List.any_cons, Bool.or_eq_true]
      exact .inl (List.any_eq_true.mpr ⟨w, hv, by simp [isCmdOf]⟩)

/-- What a table of turns must satisfy. -/
def okQuit (opn : List Byte) (cls : List (List Byte)) (late : S → Bool) (over : S → R → Bool)
    (s : S) (m : Kind × S × R) : Prop :=
  (m.1.word = some opn → late m.2.1 = true ∧ late s = false ∧ over m.2.1 m.2.2 = false) ∧
  (∀ r, over s r = true → over m.2.1 m.2.2 = true ∨ ∃ w ∈ cls, m.1.word = some w) ∧
  (∀ r, over s r = true → m.1.word ≠ some opn)

/-- The driver acts. -/
theorem Quits.moves {l : List (Kind × S × R)} (h : Quits opn cls late over base d) (hm : Moves l d e)
    (hk : ∀ m ∈ l, okQuit opn cls late over d.snd m)
    (hp : d.disconnectPending = true → e.disconnectPending = true ∨ over e.snd e.rep = true)
    (hl : d.disconnectPending = true → late d.snd = true → late e.snd = true ∨ over e.snd e.rep = true) :
    Quits opn cls late over base e := by
  obtain ⟨k, hin, hs⟩ := hm
  obtain ⟨h1, h2, h3⟩ := hk _ hin
  simp only at h1 h2 h3
  obtain ⟨new, ht, hn, hc⟩ := says_times (opn := opn) (cls := cls) hs
  by_cases ho : ∃ w ∈ cls, k.word = some w
  · obtain ⟨w, hw, hkw⟩ := ho
    obtain ⟨old, g1, g2⟩ := h
    refine ⟨old ++ new, by rw [ht, g1]; simp, .inl ?_⟩
    rw [anyOf_append, hc w hw hkw]; simp
  · by_cases hw : k.word = some opn
    · obtain ⟨l1, l2, l3⟩ := h1 hw
      obtain ⟨old, g1, g2⟩ := h
      refine ⟨old ++ new, by rw [ht, g1]; simp, ?_⟩
      rw [anyOf_append, times_append, hn, if_pos hw]
      rcases g2 with g2 | ⟨g2, g3⟩ | ⟨g3, ⟨g2, g4⟩ | g2⟩
      · left; simp [g2]
      · right; right
        refine ⟨by omega, .inl ⟨?_, l1⟩⟩
        rcases hp g2 with x | x
        · exact x
        · rw [l3] at x; cases x
      · rw [l2] at g4; cases g4
      · exact absurd hw (h3 _ g2)
    · rw [if_neg hw] at hn
      refine h.more new ht hn hp hl fun x => ?_
      rcases h2 _ x with y | y
      · exact y
      · exact absurd y ho

/-- What holds at the end of a call of `run()`. -/
def QuitsOr (opn : List Byte) (cls : List (List Byte)) (late : S → Bool) (over : S → R → Bool)
    (base : List Ev) (d : Dev S R X) : Prop :=
  d.cs = .notConnected ∨ Quits opn cls late over base d

theorem Quits.start (h : d.disconnectPending = true) : Quits opn cls late over d.trace d :=
  ⟨[], by simp, .inr (.inl ⟨h, rfl⟩)⟩

theorem Quits.result (h : Quits opn cls late over base d) :
    ∃ new, d.trace = base ++ new ∧ (2 ≤ times opn new → anyOf cls new = true) := by
  obtain ⟨new, h1, h2⟩ := h
  refine ⟨new, h1, fun h => ?_⟩
  rcases h2 with h2 | ⟨_, h2⟩ | ⟨h2, _⟩
  · exact h2
  · omega
  · omega

end

namespace Sim800

def quitClosing : Snd → Bool
  | .notConnected | .serialError | .sendCipclose | .sendCipshut | .finalizeDisconnect => true
  | _ => false

def quitLate : Snd → Bool
  | .finalizeConnect | .connected | .sendData | .sendCiprxget4 | .sendCiprxget2 | .waitReceive
  | .receiving | .ipUnconnected => true
  | s => quitClosing s

def quitOver (s : Snd) (r : Rep) : Bool := quitClosing s && r != .ciprxget2

abbrev quitClosers : List (List Byte) := [b!"AT+CIPCLOSE=0", b!"AT+CIPSHUT"]

abbrev QuitI (base : List Ev) : D → Prop := Quits b!"AT+CIPSTART" quitClosers quitLate quitOver base
abbrev QuitB (base : List Ev) : D → Prop := QuitsOr b!"AT+CIPSTART" quitClosers quitLate quitOver base

theorem moves_quit (d : D) (hn : d.snd ≠ .notConnected) :
    ∀ m ∈ moves d, okQuit b!"AT+CIPSTART" quitClosers quitLate quitOver d.snd m := by
  cases hs : d.snd
  case notConnected => exact absurd hs hn
  all_goals
    simp only [moves, hs, List.forall_mem_cons, List.not_mem_nil, false_imp_iff, implies_true, and_true, okQuit]
    simp [Kind.word, quitLate, quitOver, quitClosing]

theorem act_disc (d : D) (hr : d.rep = .okReply) (hn : d.snd ≠ .notConnected) (hd : d.disconnectPending = true) :
    ((act d).disconnectPending = true ∨ quitOver (act d).snd (act d).rep = true) ∧
    (quitLate d.snd = true → quitLate (act d).snd = true ∨ quitOver (act d).snd (act d).rep = true) := by
  unfold act
  split
  · exact absurd (by assumption) hn
  all_goals
    (try unfold actCstt)
    (try unfold actCipstart)
    (try unfold actConnected)
    (try unfold actCiprxget2)
    (try unfold actReceiving)
    (try dsimp only)
    (repeat' split) <;> simp_all [quitLate, quitOver, quitClosing, handleDisconnect, handleConnect]

theorem act_rests {d : D} (hs : d.snd = .notConnected) : (act d).cs = .notConnected := by
  simp only [act, hs, handleConnect]
  split <;> rfl

theorem parseLine_disc (p : Platform) (d : D) : (parseLine p d).1.disconnectPending = d.disconnectPending ∨
    ((parseLine p d).1.snd = .sendCipshut ∧ (parseLine p d).1.rep = .okReply) := by
  unfold parseLine
  have hw : (parseWait d).disconnectPending = d.disconnectPending := by
    unfold parseWait
    (repeat' split) <;> rfl
  split
  · exact .inl rfl
  · dsimp only
    rw [← hw]
    generalize (parseWait d) = e
    have hc : ∀ e : D, (checkState e).disconnectPending = e.disconnectPending ∧
        (checkState e).snd = e.snd ∧ (checkState e).rep = e.rep := by
      intro e; unfold checkState; (repeat' split) <;> simp
    rw [(hc _).1, (hc _).2.1, (hc _).2.2]
    unfold parseReply
    split <;> (try dsimp only) <;> (repeat' split) <;> simp_all [handleDisconnect]

theorem hears_quit {s : Snd} {r : Rep} {q : Snd × Rep} (hq : q ∈ hears s r) :
    (quitLate s = true → quitLate q.1 = true) ∧ (quitOver s r = true → quitOver q.1 q.2 = true) := by
  simp only [hears, List.cons_append, List.nil_append, List.mem_cons] at hq
  rcases hq with rfl | rfl | hq
  · exact ⟨fun h => h, fun h => h⟩
  · exact ⟨fun h => h, fun h => by simp_all [quitOver]⟩
  · cases r <;> simp at hq <;> subst hq <;> simp [quitLate, quitOver, quitClosing]

theorem handleReset_disc (d : D) : (handleReset d).disconnectPending = d.disconnectPending := by
  unfold handleReset SimDev.connect ipConnect
  dsimp only
  (repeat' split) <;> rfl

theorem handleReset_over (d : D) : quitOver (handleReset d).snd (handleReset d).rep = true := by
  obtain ⟨_, _, _, h1, h2⟩ := handleReset_ord d
  rw [h1, h2]
  split <;> rfl

theorem quit_phases (p : Platform) (base : List Ev) : Phases p (QuitI base) (QuitB base) where
  le _ h := .inr h
  fail d h _ := .inr (h.more [] (by simp) rfl (fun h => .inl h) (fun _ _ => .inl rfl)
    (fun h => by simp_all [quitOver, quitClosing]))
  reset d h _ _ := by
    obtain ⟨more, ht, hm, -, -⟩ := handleReset_ord d
    refine h.more more ht ?_ (fun _ => .inr (handleReset_over d)) (fun _ _ => .inr (handleReset_over d))
      (fun _ => handleReset_over d)
    simp only [times, List.length_eq_zero_iff, List.filter_eq_nil_iff]
    intro x hx
    rcases hm x hx with rfl | rfl <;> simp [isCmdOf]
  line d s m l _ h _ _ _ _ := by
    have hq := hears_quit (parseLine_hears p (d.gotLine s m d.rep l))
    refine h.more [.line l] (by rw [parseLine_trace]) rfl ?_ (fun _ x => .inl (hq.1 x)) hq.2
    intro x
    rcases parseLine_disc p (d.gotLine s m d.rep l) with e | e
    · exact .inl (by rw [e]; exact x)
    · exact .inr (by rw [e.1, e.2]; rfl)
  drop d h _ _ _ := h.note _ rfl rfl (fun h => h) rfl rfl
  csq d h _ _ hr _ _ _ := .inr (h.more [_, _] (by simp [sendCommand, Dev.arg_trace, Dev.cmd_trace]; exact ⟨rfl, rfl⟩)
    (by simp [times, isCmdOf]) (fun h => .inl h) (fun _ h => .inl h) (fun h => by simp_all [quitOver]))
  ident d h _ _ hr _ hq := by
    obtain ⟨v, hm, g1, g2, ht⟩ := SimDev.sendIDRequest_true hq
    refine .inr (h.more [.cmd v g1, .arg lineEnd g2] (by simp [ht]) ?_ (fun h => .inl (by simpa using h))
      (fun _ h => .inl (by simpa using h)) (fun h => by simp_all [quitOver]))
    simp only [SimDev.idCommands, iccidCommand, List.mem_cons, List.not_mem_nil, or_false] at hm
    rcases hm with rfl | rfl | rfl | rfl | rfl <;> rfl
  identNone d h hq := by
    obtain ⟨h1, h2⟩ := SimDev.sendIDRequest_false hq
    exact h.same h1 (by simp) (by simp) (by simp)
  act d h _ _ hr _ := by
    by_cases hn : d.snd = .notConnected
    · exact .inl (act_rests hn)
    · exact .inr (h.moves (act_moves hr) (moves_quit d hn) (fun x => (act_disc d hr hn x).1)
        (fun x => (act_disc d hr hn x).2))

theorem quit_step (p : Platform) (base : List Ev) {d : D} (hl : LineOk d) (h : QuitI base d) (op : Op)
    (ho : op ≠ .resetStates) : QuitB base (step p d op) := by
  cases op with
  | run ok => exact (quit_phases p base).run Quits.calls.toPort hl h ok
  | connect =>
    right
    simp only [step]
    unfold SimDev.connect
    split
    · exact h
    · exact Quits.calls.ipConnect h
  | resetStates => exact absurd rfl ho
  | setApn => exact .inr (h.same rfl rfl rfl rfl)
  | serialLock =>
    right
    simp only [step, SimDev.serialLock]
    split
    · exact h
    · exact h.same rfl rfl rfl rfl
  | serialUnlock => exact .inr (h.same rfl rfl rfl rfl)
  | requestID t => exact .inr (h.same rfl rfl rfl rfl)
  | _ => right; simp only [step]; exact Quits.calls.common h _

theorem quit_exec (p : Platform) (base : List Ev) (ops : List Op) {d : D} (hv : Inv d) (h : QuitI base d)
    (ho : Op.resetStates ∉ ops) (hi : ∀ a b, ops = a ++ b → a ≠ [] → (exec (step p) d a).isIdle = false) :
    QuitI base (exec (step p) d ops) := by
  induction ops generalizing d with
  | nil => exact h
  | cons op ops ih =>
    simp only [List.mem_cons, not_or] at ho
    have h1 : (step p d op).isIdle = false := hi [op] ops rfl (by simp)
    refine ih (step_inv p op hv) ?_ ho.2 fun a b e _ => hi (op :: a) b (by rw [e]; rfl) (by simp)
    rcases quit_step p base hv.1.line h op (fun e => ho.1 e.symm) with h2 | h2
    · simp [Dev.isIdle, h2] at h1
    · exact h2

end Sim800

namespace Espressif

def quitClosing : Snd → Bool
  | .notConnected | .serialError | .sendCipclose | .sendCwqap | .finalizeDisconnect => true
  | _ => false

def quitLate : Snd → Bool
  | .finalizeConnect | .connected | .sendDataState | .sendCiprecvdata | .waitReceive | .receiving => true
  | s => quitClosing s

def quitOver (s : Snd) (r : Rep) : Bool := quitClosing s && r != .waitCiprecvdata && r != .parseStateCiprecvdata

abbrev quitClosers : List (List Byte) := [b!"AT+CIPCLOSE", b!"AT+CWQAP"]

abbrev QuitI (base : List Ev) : D → Prop := Quits b!"AT+CIPSTART" quitClosers quitLate quitOver base
abbrev QuitB (base : List Ev) : D → Prop := QuitsOr b!"AT+CIPSTART" quitClosers quitLate quitOver base

theorem moves_quit (d : D) (hn : d.snd ≠ .notConnected) :
    ∀ m ∈ moves d, okQuit b!"AT+CIPSTART" quitClosers quitLate quitOver d.snd m := by
  cases hs : d.snd
  case notConnected => exact absurd hs hn
  case sendCiprecvmode =>
    simp only [moves, hs, List.forall_mem_cons, List.not_mem_nil, false_imp_iff, implies_true, and_true, okQuit]
    split <;> simp [Kind.word, quitLate, quitOver, quitClosing]
  all_goals
    simp only [moves, hs, List.forall_mem_cons, List.not_mem_nil, false_imp_iff, implies_true, and_true, okQuit]
    simp [Kind.word, quitLate, quitOver, quitClosing]

theorem act_disc (d : D) (hr : d.rep = .okReply) (hn : d.snd ≠ .notConnected) (hd : d.disconnectPending = true) :
    ((act d).disconnectPending = true ∨ quitOver (act d).snd (act d).rep = true) ∧
    (quitLate d.snd = true → quitLate (act d).snd = true ∨ quitOver (act d).snd (act d).rep = true) := by
  unfold act
  split
  · exact absurd (by assumption) hn
  all_goals
    (try unfold actCwjap)
    (try unfold actCipstart)
    (try unfold actConnected)
    (try unfold actCiprecvdata)
    (try unfold actReceiving)
    (try dsimp only)
    (repeat' split) <;> simp_all [quitLate, quitOver, quitClosing, handleDisconnect, handleConnect]

theorem act_rests {d : D} (hs : d.snd = .notConnected) : (act d).cs = .notConnected := by
  simp only [act, hs, handleConnect]
  split <;> rfl

theorem parseLine_disc (p : Platform) (d : D) : (parseLine p d).1.disconnectPending = d.disconnectPending ∨
    ((parseLine p d).1.snd = .finalizeDisconnect ∧ (parseLine p d).1.rep = .okReply) := by
  unfold parseLine
  have hw : (parseWait (parseSendFail d)).disconnectPending = d.disconnectPending := by
    unfold parseWait parseSendFail
    (repeat' split) <;> rfl
  split
  · exact .inl rfl
  · dsimp only
    left
    rw [← hw]
    generalize (parseWait (parseSendFail d)) = e
    have hc : ∀ e : D, (checkState p e).disconnectPending = e.disconnectPending := by
      intro e; unfold checkState; (repeat' split) <;> simp
    rw [hc _]
    unfold parseReply
    split <;> (try dsimp only) <;> (repeat' split) <;> simp_all [handleDisconnect]

theorem hears_quit {s : Snd} {r : Rep} {q : Snd × Rep} (hq : q ∈ hears s r) :
    (quitLate s = true → quitLate q.1 = true) ∧ (quitOver s r = true → quitOver q.1 q.2 = true) := by
  simp only [hears, List.cons_append, List.nil_append, List.mem_cons] at hq
  rcases hq with rfl | rfl | rfl | rfl | hq
  · exact ⟨fun h => h, fun h => h⟩
  · exact ⟨fun h => h, fun h => by simp_all [quitOver]⟩
  · exact ⟨fun h => rfl, fun h => by simp_all [quitOver, quitClosing]⟩
  · exact ⟨fun h => rfl, fun h => by simp_all [quitOver, quitClosing]⟩
  · cases r <;> simp at hq <;> subst hq <;> simp [quitLate, quitOver, quitClosing]

theorem handleReset_quit (d : D) (h : d.disconnectPending = true ∨ quitClosing d.snd = true) :
    (handleReset d).snd = .notConnected := by
  unfold handleReset
  dsimp only
  rw [show (flushSer d).snd = d.snd from rfl, show (flushSer d).disconnectPending = d.disconnectPending from rfl]
  simp only [Dev.arg_snd, Dev.cmd_snd]
  refine if_neg fun hx => ?_
  rcases h with h | h
  · rw [h] at hx; cases hx.2.2
  · revert hx h
    cases d.snd <;> simp [quitClosing, Snd.idx]

theorem handleReset_rep (d : D) : (handleReset d).rep = .okReply := rfl

theorem handleReset_times (d : D) : ∃ new, (handleReset d).trace = d.trace ++ new ∧ times b!"AT+CIPSTART" new = 0 := by
  have ht : ∃ g1 g2, (handleReset d).trace = d.trace ++ [.flush, .cmd b!"AT+RST" g1, .arg lineEnd g2] := by
    unfold handleReset
    dsimp only
    rw [Dev.arg_trace, Dev.cmd_trace]
    simp only [List.append_assoc]
    exact ⟨_, _, by rw [show (flushSer d).trace = d.trace ++ [.flush] from rfl]; simp; exact ⟨rfl, rfl⟩⟩
  obtain ⟨g1, g2, ht⟩ := ht
  exact ⟨_, ht, rfl⟩

theorem quit_phases (p : Platform) (base : List Ev) : Phases p (QuitI base) (QuitB base) where
  le _ h := .inr h
  fail d h _ := .inr (h.more [] (by simp) rfl (fun h => .inl h) (fun _ _ => .inl rfl)
    (fun h => by simp_all [quitOver, quitClosing]))
  reset d h _ := by
    obtain ⟨new, ht, hm⟩ := handleReset_times d
    have hd : d.disconnectPending = true ∨ quitClosing d.snd = true →
        quitOver (handleReset d).snd (handleReset d).rep = true := fun x => by
      rw [handleReset_quit d x, handleReset_rep]; rfl
    exact .inr (h.more new ht hm (fun x => .inr (hd (.inl x))) (fun x _ => .inr (hd (.inl x)))
      (fun x => hd (.inr (by simp_all [quitOver]))))
  line d s m l r _ h _ _ hr _ _ _ := by
    have hq := hears_quit (parseLine_hears p (d.gotLine s m r l))
    have hr' : quitOver d.snd d.rep = true → quitOver d.snd r = true := fun x => by
      rcases hr with e | e
      · rw [e]; exact x
      · rw [e.1] at x; simp [quitOver] at x
    refine h.more [.line l] (by rw [parseLine_trace]) rfl ?_ (fun _ x => .inl (hq.1 x)) (fun x => hq.2 (hr' x))
    intro x
    rcases parseLine_disc p (d.gotLine s m r l) with e | e
    · exact .inl (by rw [e]; exact x)
    · exact .inr (by rw [e.1, e.2]; rfl)
  drop d h _ _ _ := h.note _ rfl rfl (fun h => h) rfl rfl
  csq d h _ _ hr _ _ _ := .inr (h.more [_, _] (by simp [sendCommand, Dev.arg_trace, Dev.cmd_trace]; exact ⟨rfl, rfl⟩)
    (by simp [times, isCmdOf]) (fun h => .inl h) (fun _ h => .inl h) (fun h => by simp_all [quitOver]))
  mac d h _ _ hr _ _ _ := .inr (h.more [_, _] (by simp [sendCommand, Dev.arg_trace, Dev.cmd_trace]; exact ⟨rfl, rfl⟩)
    (by simp [times, isCmdOf]) (fun h => .inl h) (fun _ h => .inl h) (fun h => by simp_all [quitOver]))
  act d h _ _ hr _ := by
    by_cases hn : d.snd = .notConnected
    · exact .inl (act_rests hn)
    · exact .inr (h.moves (act_moves hr) (moves_quit d hn) (fun x => (act_disc d hr hn x).1)
        (fun x => (act_disc d hr hn x).2))

theorem quit_step (p : Platform) (base : List Ev) {d : D} (hl : LineOk d) (h : QuitI base d) (op : Op)
    (ho : op ≠ .resetStates) : QuitB base (step p d op) := by
  cases op with
  | run ok => exact (quit_phases p base).run Quits.calls.toPort hl h ok
  | connect =>
    right
    simp only [step]
    unfold Espressif.connect
    dsimp only
    split
    · split
      · exact h.same rfl rfl rfl rfl
      · exact Quits.calls.ipConnect (h.same rfl rfl rfl rfl)
    · split
      · exact h
      · exact Quits.calls.ipConnect h
  | resetStates => exact absurd rfl ho
  | setSSID => exact .inr (h.same rfl rfl rfl rfl)
  | setPassword => exact .inr (h.same rfl rfl rfl rfl)
  | requestMac => exact .inr (h.same rfl rfl rfl rfl)
  | _ => right; simp only [step]; exact Quits.calls.common h _

theorem quit_exec (p : Platform) (base : List Ev) (ops : List Op) {d : D} (hv : Inv d) (h : QuitI base d)
    (ho : Op.resetStates ∉ ops) (hi : ∀ a b, ops = a ++ b → a ≠ [] → (exec (step p) d a).isIdle = false) :
    QuitI base (exec (step p) d ops) := by
  induction ops generalizing d with
  | nil => exact h
  | cons op ops ih =>
    simp only [List.mem_cons, not_or] at ho
    have h1 : (step p d op).isIdle = false := hi [op] ops rfl (by simp)
    refine ih (step_inv p op hv) ?_ ho.2 fun a b e _ => hi (op :: a) b (by rw [e]; rfl) (by simp)
    rcases quit_step p base hv.line h op (fun e => ho.1 e.symm) with h2 | h2
    · simp [Dev.isIdle, h2] at h1
    · exact h2

/-- No connection is asked for, and the request to disconnect is followed without opening another one. -/
def StayI (base : List Ev) (d : D) : Prop :=
  d.connectPending = false ∧ Quits b!"AT+CIPSTART" [] quitLate quitOver base d

theorem moves_stay (d : D) (hn : d.snd ≠ .notConnected) :
    ∀ m ∈ moves d, okQuit b!"AT+CIPSTART" [] quitLate quitOver d.snd m := by
  cases hs : d.snd
  case notConnected => exact absurd hs hn
  case sendCiprecvmode =>
    simp only [moves, hs, List.forall_mem_cons, List.not_mem_nil, false_imp_iff, implies_true, and_true, okQuit]
    split <;> simp [Kind.word, quitLate, quitOver, quitClosing]
  all_goals
    simp only [moves, hs, List.forall_mem_cons, List.not_mem_nil, false_imp_iff, implies_true, and_true, okQuit]
    simp [Kind.word, quitLate, quitOver, quitClosing]

theorem parseLine_conn (p : Platform) (d : D) : (parseLine p d).1.connectPending = d.connectPending := by
  unfold parseLine
  have hw : (parseWait (parseSendFail d)).connectPending = d.connectPending := by
    unfold parseWait parseSendFail
    (repeat' split) <;> rfl
  split
  · rfl
  · dsimp only
    rw [← hw]
    generalize (parseWait (parseSendFail d)) = e
    have hc : ∀ e : D, (checkState p e).connectPending = e.connectPending := by
      intro e; unfold checkState; (repeat' split) <;> simp
    rw [hc _]
    unfold parseReply
    split <;> (try dsimp only) <;> (repeat' split) <;> simp_all

theorem act_conn (d : D) (h : d.connectPending = false) : (act d).connectPending = false := by
  unfold act
  split
  all_goals
    (try unfold actCwjap)
    (try unfold actCipstart)
    (try unfold actConnected)
    (try unfold actCiprecvdata)
    (try unfold actReceiving)
    (try dsimp only)
    (repeat' split) <;> simp_all [handleDisconnect, handleConnect]

theorem stay_port (base : List Ev) : Port (StayI base) where
  io _ _ _ _ _ h := ⟨h.1, h.2.same rfl rfl rfl rfl⟩
  isOpen _ _ h := ⟨h.1, h.2.same rfl rfl rfl rfl⟩

theorem stay_sections (p : Platform) (base : List Ev) : Sections p (StayI base) where
  fail d h _ := ⟨h.1, h.2.more [] (by simp) rfl (fun h => .inl h) (fun _ _ => .inl rfl)
    (fun h => by simp_all [quitOver, quitClosing])⟩
  reset d h _ := by
    obtain ⟨new, ht, hm⟩ := handleReset_times d
    have hd : d.disconnectPending = true ∨ quitClosing d.snd = true →
        quitOver (handleReset d).snd (handleReset d).rep = true := fun x => by
      rw [handleReset_quit d x, handleReset_rep]; rfl
    exact ⟨rfl, h.2.more new ht hm (fun x => .inr (hd (.inl x))) (fun x _ => .inr (hd (.inl x)))
      (fun x => hd (.inr (by simp_all [quitOver])))⟩
  line d s m l r _ h _ _ hr _ _ _ := by
    have hq := hears_quit (parseLine_hears p (d.gotLine s m r l))
    have hr' : quitOver d.snd d.rep = true → quitOver d.snd r = true := fun x => by
      rcases hr with e | e
      · rw [e]; exact x
      · rw [e.1] at x; simp [quitOver] at x
    refine ⟨by rw [parseLine_conn]; exact h.1,
      h.2.more [.line l] (by rw [parseLine_trace]) rfl ?_ (fun _ x => .inl (hq.1 x)) (fun x => hq.2 (hr' x))⟩
    intro x
    rcases parseLine_disc p (d.gotLine s m r l) with e | e
    · exact .inl (by rw [e]; exact x)
    · exact .inr (by rw [e.1, e.2]; rfl)
  drop d h _ _ _ := ⟨h.1, h.2.note _ rfl rfl (fun h => h) rfl rfl⟩
  csq d h _ _ hr _ _ _ := ⟨h.1, h.2.more [_, _] (by simp [sendCommand, Dev.arg_trace, Dev.cmd_trace]; exact ⟨rfl, rfl⟩)
    (by simp [times, isCmdOf]) (fun h => .inl h) (fun _ h => .inl h) (fun h => by simp_all [quitOver])⟩
  mac d h _ _ hr _ _ _ := ⟨h.1, h.2.more [_, _] (by simp [sendCommand, Dev.arg_trace, Dev.cmd_trace]; exact ⟨rfl, rfl⟩)
    (by simp [times, isCmdOf]) (fun h => .inl h) (fun _ h => .inl h) (fun h => by simp_all [quitOver])⟩
  act d h _ _ hr _ := by
    refine ⟨act_conn d h.1, ?_⟩
    by_cases hn : d.snd = .notConnected
    · refine h.2.same ?_ ?_ ?_ ?_ <;> simp [act, hn, handleConnect, h.1]
    · exact h.2.moves (act_moves hr) (moves_stay d hn) (fun x => (act_disc d hr hn x).1)
        (fun x => (act_disc d hr hn x).2)

theorem stay_step (p : Platform) (base : List Ev) {d : D} (hl : LineOk d) (h : StayI base d) (op : Op)
    (ho : op ≠ .connect) : StayI base (step p d op) := by
  cases op with
  | run ok => exact (stay_sections p base).run (stay_port base) hl h ok
  | connect => exact absurd rfl ho
  | resetStates => exact ⟨rfl, h.2.more [.apiReset] rfl rfl (fun _ => .inr rfl) (fun _ _ => .inl rfl) (fun _ => rfl)⟩
  | setSSID => exact ⟨h.1, h.2.same rfl rfl rfl rfl⟩
  | setPassword => exact ⟨h.1, h.2.same rfl rfl rfl rfl⟩
  | requestMac => exact ⟨h.1, h.2.same rfl rfl rfl rfl⟩
  | _ =>
    refine ⟨?_, Quits.calls.common h.2 _⟩
    simp only [step, Dev.common, Dev.disconnect, Dev.setHostPort, Dev.write, Dev.read, Dev.requestRSSI, Dev.serialWrite,
      Dev.serialRead]
    try (repeat' split)
    all_goals exact h.1

theorem stay_exec (p : Platform) (base : List Ev) {d : D} (hv : Inv d) (h : StayI base d)
    (ops : List Op) (ho : Op.connect ∉ ops) : StayI base (exec (step p) d ops) :=
  (exec_inv (step := step p) (I := fun d => Inv d ∧ StayI base d) (ok := fun op => op ≠ .connect)
    (fun _ op hq h => ⟨step_inv p op h.1, stay_step p base h.1.line h.2 op hq⟩) ⟨hv, h⟩ ops
    fun op hop e => ho (e ▸ hop)).2

end Espressif

namespace CC1352P7

def quitClosing : Snd → Bool
  | .notConnected | .serialError | .sendCipclose | .finalizeDisconnect => true
  | _ => false

def quitLate : Snd → Bool
  | .finalizeConnect | .connected | .sendDataState | .sendCiprecvdata | .waitReceive | .receiving => true
  | s => quitClosing s

def quitOver (s : Snd) (r : Rep) : Bool := quitClosing s && r != .parseStateCiprecvdata

abbrev quitClosers : List (List Byte) := [b!"AT+CIPCLOSE"]

abbrev QuitI (base : List Ev) : D → Prop := Quits b!"AT+CIPSTART" quitClosers quitLate quitOver base
abbrev QuitB (base : List Ev) : D → Prop := QuitsOr b!"AT+CIPSTART" quitClosers quitLate quitOver base

theorem moves_quit (d : D) (hn : d.snd ≠ .notConnected) :
    ∀ m ∈ moves d, okQuit b!"AT+CIPSTART" quitClosers quitLate quitOver d.snd m := by
  cases hs : d.snd
  case notConnected => exact absurd hs hn
  all_goals
    simp only [moves, hs, List.forall_mem_cons, List.not_mem_nil, false_imp_iff, implies_true, and_true, okQuit]
    simp [Kind.word, quitLate, quitOver, quitClosing]

theorem act_disc (d : D) (hr : d.rep = .okReply) (hn : d.snd ≠ .notConnected) (hd : d.disconnectPending = true) :
    ((act d).disconnectPending = true ∨ quitOver (act d).snd (act d).rep = true) ∧
    (quitLate d.snd = true → quitLate (act d).snd = true ∨ quitOver (act d).snd (act d).rep = true) := by
  unfold act
  split
  · exact absurd (by assumption) hn
  all_goals
    (try unfold actCipstart)
    (try unfold actConnected)
    (try unfold actCiprecvdata)
    (try unfold actReceiving)
    (try dsimp only)
    (repeat' split) <;> simp_all [quitLate, quitOver, quitClosing, handleDisconnect, handleConnect]

theorem act_rests {d : D} (hs : d.snd = .notConnected) : (act d).cs = .notConnected := by
  simp only [act, hs, handleConnect]
  split <;> rfl

theorem parseLine_disc (p : Platform) (d : D) : (parseLine p d).1.disconnectPending = d.disconnectPending ∨
    ((parseLine p d).1.snd = .finalizeDisconnect ∧ (parseLine p d).1.rep = .okReply) := by
  unfold parseLine
  have hw : (parseWait d).disconnectPending = d.disconnectPending := by
    unfold parseWait
    (repeat' split) <;> rfl
  split
  · exact .inl rfl
  · dsimp only
    rw [← hw]
    generalize (parseWait d) = e
    have hc : ∀ e : D, (checkState p e).disconnectPending = e.disconnectPending ∧
        (checkState p e).snd = e.snd ∧ (checkState p e).rep = e.rep := by
      intro e; unfold checkState; (repeat' split) <;> simp
    rw [(hc _).1, (hc _).2.1, (hc _).2.2]
    unfold parseReply
    split <;> (try unfold parseMac) <;> (try dsimp only) <;> (repeat' split) <;> simp_all [handleDisconnect]

theorem hears_quit {s : Snd} {r : Rep} {q : Snd × Rep} (hq : q ∈ hears s r) :
    (quitLate s = true → quitLate q.1 = true) ∧ (quitOver s r = true → quitOver q.1 q.2 = true) := by
  simp only [hears, List.cons_append, List.nil_append, List.mem_cons] at hq
  rcases hq with rfl | rfl | hq
  · exact ⟨fun h => h, fun h => h⟩
  · exact ⟨fun h => h, fun h => by simp_all [quitOver]⟩
  · cases r <;> simp at hq <;> subst hq <;> simp [quitLate, quitOver, quitClosing]

theorem handleReset_over (d : D) : quitOver (handleReset d).snd (handleReset d).rep = true := by
  obtain ⟨_, _, _, h1, h2⟩ := handleReset_ord d
  rw [h1, h2]
  rfl

theorem quit_phases (p : Platform) (base : List Ev) : Phases p (QuitI base) (QuitB base) where
  le _ h := .inr h
  fail d h _ := .inr (h.more [] (by simp) rfl (fun h => .inl h) (fun _ _ => .inl rfl)
    (fun h => by simp_all [quitOver, quitClosing]))
  reset d h _ := by
    obtain ⟨more, ht, hm, -, -⟩ := handleReset_ord d
    refine h.more more ht ?_ (fun _ => .inr (handleReset_over d)) (fun _ _ => .inr (handleReset_over d))
      (fun _ => handleReset_over d)
    simp only [times, List.length_eq_zero_iff, List.filter_eq_nil_iff]
    intro x hx
    rcases hm x hx with rfl | rfl <;> simp [isCmdOf]
  line d s m l _ h _ _ _ _ _ := by
    have hq := hears_quit (parseLine_hears p (d.gotLine s m d.rep l))
    refine h.more [.line l] (by rw [parseLine_trace]) rfl ?_ (fun _ x => .inl (hq.1 x)) hq.2
    intro x
    rcases parseLine_disc p (d.gotLine s m d.rep l) with e | e
    · exact .inl (by rw [e]; exact x)
    · exact .inr (by rw [e.1, e.2]; rfl)
  drop d h _ _ _ := h.note _ rfl rfl (fun h => h) rfl rfl
  csq d h _ _ hr _ _ _ := .inr (h.more [_, _] (by simp [sendCommand, Dev.arg_trace, Dev.cmd_trace]; exact ⟨rfl, rfl⟩)
    (by simp [times, isCmdOf]) (fun h => .inl h) (fun _ h => .inl h) (fun h => by simp_all [quitOver]))
  mac d h _ _ hr _ _ _ := .inr (h.more [_, _] (by simp [sendCommand, Dev.arg_trace, Dev.cmd_trace]; exact ⟨rfl, rfl⟩)
    (by simp [times, isCmdOf]) (fun h => .inl h) (fun _ h => .inl h) (fun h => by simp_all [quitOver]))
  act d h _ _ hr _ := by
    by_cases hn : d.snd = .notConnected
    · exact .inl (act_rests hn)
    · exact .inr (h.moves (act_moves hr) (moves_quit d hn) (fun x => (act_disc d hr hn x).1)
        (fun x => (act_disc d hr hn x).2))

theorem quit_step (p : Platform) (base : List Ev) {d : D} (hl : LineOk d) (h : QuitI base d) (op : Op)
    (ho : op ≠ .resetStates) : QuitB base (step p d op) := by
  cases op with
  | run ok => exact (quit_phases p base).run Quits.calls.toPort hl h ok
  | connect => right; simp only [step]; exact Quits.calls.ipConnect h
  | resetStates => exact absurd rfl ho
  | requestMac => exact .inr (h.same rfl rfl rfl rfl)
  | _ => right; simp only [step]; exact Quits.calls.common h _

theorem quit_exec (p : Platform) (base : List Ev) (ops : List Op) {d : D} (hv : Inv d) (h : QuitI base d)
    (ho : Op.resetStates ∉ ops) (hi : ∀ a b, ops = a ++ b → a ≠ [] → (exec (step p) d a).isIdle = false) :
    QuitI base (exec (step p) d ops) := by
  induction ops generalizing d with
  | nil => exact h
  | cons op ops ih =>
    simp only [List.mem_cons, not_or] at ho
    have h1 : (step p d op).isIdle = false := hi [op] ops rfl (by simp)
    refine ih (step_inv p op hv) ?_ ho.2 fun a b e _ => hi (op :: a) b (by rw [e]; rfl) (by simp)
    rcases quit_step p base hv.1.line h op (fun e => ho.1 e.symm) with h2 | h2
    · simp [Dev.isIdle, h2] at h1
    · exact h2

end CC1352P7

end Verif
