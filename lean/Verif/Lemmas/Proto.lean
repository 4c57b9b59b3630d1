import Verif.Lemmas.Net

/-!
The protocol of an open connection as a machine. The drivers refine it; driver and modem together are examined with it.
-/

namespace Verif.Spec

open Dev

/-- Where the driver is. -/
inductive Spot
  /-- Nothing is awaited. -/
  | ready
  /-- The modem is to ask for the payload. -/
  | prompt
  /-- The modem is to confirm the payload. -/
  | confirm
  /-- The amount of data is to be asked for. -/
  | query
  | count
  | counted
  /-- Data is to be asked for. -/
  | ask
  | asked (n : Nat)
  /-- Bytes of the block have arrived. -/
  | taking (b : List Byte)
  | taken

/-- Bytes in the receive buffer. -/
def Spot.part : Spot → List Byte
  | .taking b => b
  | _ => []

/-- Bytes still to be given. -/
def Phase.rest : Phase → List Byte
  | .data b => b
  | _ => []

/-- Parameters. `polls`: the driver asks for the amount of data; otherwise announcements tell it. `room`: free bytes in the
receive buffer besides a block. `most`: limit of a block. -/
structure Mach where
  t : Tongue
  polls : Bool
  room : Nat
  most : Nat

/-- Result of a transition: new spot, settings and what is said. -/
structure Out where
  spot : Spot
  conf : Conf
  says : List (List Byte)

namespace Mach

variable (M : Mach)

/-- Number of bytes to be sent next. -/
def chunk (c : Conf) : Nat := min c.wq.length (c.tx - 22)

/-- Number of bytes to be asked for. -/
def want (c : Conf) : Nat := min (min (min (c.rx - M.room) c.rcv) (c.rcap - c.rq.length)) M.most

def ready (c : Conf) : Out :=
  if c.wq ≠ [] then ⟨.prompt, { c with bw := chunk c }, [M.t.send (chunk c)]⟩
  else if c.data then ⟨if M.polls then .query else .ask, { c with data := false }, []⟩
  else ⟨.ready, c, []⟩

def ask (c : Conf) : Out :=
  if 0 < c.rcv then if c.rq.length < c.rcap then ⟨.asked (M.want c), c, [M.t.ask (M.want c)]⟩ else ⟨.ask, c, []⟩
  else ⟨.ready, c, []⟩

def taken (c : Conf) : Out := ⟨if 0 < c.rcv then .ask else if M.polls then .query else .ready, c, []⟩

/-- `run()` without news from the modem. -/
def run (s : Spot) (c : Conf) : Out :=
  match s with
  | .ready => M.ready c
  | .query => ⟨.count, c, [M.t.query]⟩
  | .ask => M.ask c
  | s => ⟨s, c, []⟩

/-- An announcement. -/
def told (c : Conf) (n : Nat) : Conf := { c with data := true, rcv := if M.polls then c.rcv else n }

/-- The payload is sent. -/
def paid (c : Conf) : Conf := { c with wq := c.wq.drop c.bw, bw := 18446744073709551615 }

/-- Bytes of a block arrive; `b` have arrived before. -/
def gets (c : Conf) (b l : List Byte) : Out :=
  if (b ++ l).length = c.rd then ⟨.taken, { c with rq := c.rq ++ (b ++ l), rd := 0 }, []⟩ else ⟨.taking (b ++ l), c, []⟩

end Mach

/-- Where the modem is, compared with the driver. -/
def Meet (M : Mach) (s : Spot) (c : Conf) (ph : Phase) : Prop :=
  match s, ph with
  | .ready, .idle => True
  | .prompt, .prompt n => n = c.bw ∧ 0 < n ∧ n ≤ c.wq.length ∧ n ≤ c.tx - 22
  | .confirm, .confirm => True
  | .query, .idle => M.polls = true
  | .count, .count => M.polls = true
  | .counted, .done => M.polls = true
  | .ask, .idle => True
  | .asked n, .header k => n = k ∧ 0 < n ∧ n ≤ c.rcv ∧ c.rq.length + n ≤ c.rcap ∧ n ≤ c.rx - M.room
  | .taking b, .data l => l ≠ [] ∧ b.length + l.length = c.rd ∧ c.rq.length + c.rd ≤ c.rcap ∧ c.rd ≤ c.rx
  | .taken, .done => True
  | _, _ => False

/-- The driver has no reason to look for data. -/
def Spot.blind (c : Conf) : Spot → Bool
  | .ready => true
  | .prompt => true
  | .confirm => true
  | .counted => c.rcv == 0
  | .ask => c.rcv == 0
  | _ => false

/-- The driver does not know of data. -/
def Spot.new : Spot → Bool
  | .ready => true
  | .prompt => true
  | .confirm => true
  | .query => true
  | .count => true
  | _ => false

/-- The modem is not forgotten. -/
def Fresh (M : Mach) (s : Spot) (c : Conf) (m : Modem) : Prop :=
  if M.polls then (s.new = true → c.rcv = 0) ∧ (s.blind c = true → m.inbox ≠ [] → m.news = true ∨ c.data = true)
  else (m.news = true ∨ c.rcv = m.inbox.length) ∧ (s.new = true → 0 < c.rcv → c.data = true)

/-- Driver and modem together. -/
structure Fit (M : Mach) (cap : Nat) (s : Spot) (c : Conf) (m : Modem) : Prop where
  meet : Meet M s c m.phase
  out : m.outbox ++ c.wq = c.took
  came : c.gave ++ c.rq ++ s.part ++ m.phase.rest ++ m.inbox = m.came
  cap : m.inbox.length ≤ cap
  rcv : c.rcv ≤ m.inbox.length
  rd : s.part = [] → m.phase.rest = [] → c.rd = 0
  fresh : Fresh M s c m

/-- Fixed facts. -/
structure Mach.Good (M : Mach) (c : Conf) : Prop where
  always : M.polls = false → M.t.always = true
  query : ∀ m : Modem, m.phase = .idle → m.listen M.t M.t.query = { m with phase := .count }
  ask : ∀ (m : Modem) (n : Nat), m.phase = .idle → m.listen M.t (M.t.ask n) = { m with phase := .header n }
  send : ∀ (m : Modem) (n : Nat), m.phase = .idle → m.listen M.t (M.t.send n) = { m with phase := .prompt n }
  rx : M.room < c.rx
  tx : 22 < c.tx
  most : 0 < M.most
  rcap : 0 < c.rcap
  announce : ∀ n, M.t.announce n ≠ []
  confirm : M.t.confirm ≠ []
  count : M.polls = true → ∀ n, M.t.count n ≠ []
  header : ∀ n k, M.t.header n k ≠ []

/-- Distance to the end. -/
def Spot.weight (ph : Phase) : Spot → Nat
  | .ready => 10
  | .prompt => 9
  | .confirm => 50
  | .query => 25
  | .count => 24
  | .counted => 23
  | .ask => 22
  | .asked _ => 21
  | .taking b => 60 + b.length + 2 * ph.rest.length
  | .taken => 59

def dist (s : Spot) (c : Conf) (m : Modem) : Nat :=
  101 * m.inbox.length + c.rq.length + 100 * c.wq.length + (if m.news then 30 else 0) + (if c.data then 20 else 0) +
    s.weight m.phase

variable {M : Mach} {cap : Nat} {s : Spot} {c : Conf} {m : Modem}

/-- The modem hears what the driver says. -/
def Modem.hears (t : Tongue) (m : Modem) (us : List (List Byte)) : Modem := us.foldl (Modem.listen t) m

/-- `run()` helps. -/
def Mach.Acts (s : Spot) (c : Conf) : Prop :=
  match s with
  | .ready => c.wq ≠ [] ∨ c.data = true
  | .query => True
  | .ask => c.rcv = 0 ∨ c.rq.length < c.rcap
  | _ => False

theorem Mach.want_pos (g : M.Good c) (h1 : 0 < c.rcv) (h2 : c.rq.length < c.rcap) : 0 < M.want c := by
  have := g.rx; have := g.most
  unfold Mach.want; omega

theorem Mach.chunk_pos (g : M.Good c) (h1 : c.wq ≠ []) : 0 < Mach.chunk c := by
  have := g.tx; have := List.length_pos_iff.mpr h1
  unfold Mach.chunk; omega

/-- The ready state. -/
theorem Fit.ready (g : M.Good c) (h : Fit M cap .ready c m) :
    Fit M cap (M.ready c).spot (M.ready c).conf (m.hears M.t (M.ready c).says) ∧
    (dist (M.ready c).spot (M.ready c).conf (m.hears M.t (M.ready c).says) < dist .ready c m ∨
      (M.ready c = ⟨.ready, c, []⟩ ∧ c.wq = [] ∧ c.data = false)) := by
  obtain ⟨meet, out, came, hcap, rcv, rd, fresh⟩ := h
  obtain ⟨ph, inbox, outbox, cm, news⟩ := m
  cases ph <;> simp only [Meet] at meet
  unfold Mach.ready
  split
  · rename_i hw
    have hs := g.send ⟨.idle, inbox, outbox, cm, news⟩ (Mach.chunk c) rfl
    have hp := Mach.chunk_pos g hw
    simp only [Modem.hears, List.foldl_cons, List.foldl_nil, hs]
    refine ⟨⟨⟨rfl, hp, ?_, ?_⟩, out, came, hcap, rcv, rd, ?_⟩, .inl ?_⟩
    · exact Nat.min_le_left _ _
    · exact Nat.min_le_right _ _
    · simpa [Fresh, Spot.blind, Spot.new] using fresh
    · simp only [dist, Spot.weight]; omega
  · rename_i hw
    split
    · rename_i hd
      simp only [Modem.hears, List.foldl_nil]
      unfold Fresh at fresh
      cases hp : M.polls with
      | true =>
        simp only [hp, if_true] at fresh ⊢
        refine ⟨⟨hp, out, came, hcap, rcv, rd, ?_⟩, .inl ?_⟩
        · unfold Fresh
          simp only [hp, if_true]
          exact ⟨fun _ => fresh.1 rfl, by simp [Spot.blind]⟩
        · simp only [dist, Spot.weight, hd, if_true, Bool.false_eq_true, if_false]; omega
      | false =>
        simp only [hp, Bool.false_eq_true, if_false] at fresh ⊢
        refine ⟨⟨trivial, out, came, hcap, rcv, rd, ?_⟩, .inl ?_⟩
        · unfold Fresh
          simp only [hp, Bool.false_eq_true, if_false]
          exact ⟨fresh.1, by simp [Spot.new]⟩
        · simp only [dist, Spot.weight, hd, if_true, Bool.false_eq_true, if_false]; omega
    · rename_i hd
      refine ⟨⟨trivial, out, came, hcap, rcv, rd, fresh⟩, .inr ⟨rfl, by simpa using hw, by simpa using hd⟩⟩

/-- Data is to be asked for. -/
theorem Fit.ask (g : M.Good c) (h : Fit M cap .ask c m) :
    Fit M cap (M.ask c).spot (M.ask c).conf (m.hears M.t (M.ask c).says) ∧
    (dist (M.ask c).spot (M.ask c).conf (m.hears M.t (M.ask c).says) < dist .ask c m ∨
      (M.ask c = ⟨.ask, c, []⟩ ∧ 0 < c.rcv ∧ c.rcap ≤ c.rq.length)) := by
  obtain ⟨meet, out, came, hcap, rcv, rd, fresh⟩ := h
  obtain ⟨ph, inbox, outbox, cm, news⟩ := m
  cases ph <;> simp only [Meet] at meet
  unfold Mach.ask
  split
  · rename_i h1
    split
    · rename_i h2
      have hs := g.ask ⟨.idle, inbox, outbox, cm, news⟩ (M.want c) rfl
      have hp := Mach.want_pos g h1 h2
      simp only [Modem.hears, List.foldl_cons, List.foldl_nil, hs]
      refine ⟨⟨⟨rfl, hp, ?_, ?_, ?_⟩, out, came, hcap, rcv, rd, ?_⟩, .inl ?_⟩
      · unfold Mach.want; omega
      · unfold Mach.want; omega
      · unfold Mach.want; omega
      · unfold Fresh at fresh ⊢
        split
        · exact ⟨by simp [Spot.new], by simp [Spot.blind]⟩
        · rename_i hp
          simp only [hp] at fresh
          exact ⟨fresh.1, by simp [Spot.new]⟩
      · simp only [dist, Spot.weight]; omega
    · rename_i h2
      exact ⟨⟨trivial, out, came, hcap, rcv, rd, fresh⟩, .inr ⟨rfl, h1, by omega⟩⟩
  · rename_i h1
    simp only [Modem.hears, List.foldl_nil]
    refine ⟨⟨trivial, out, came, hcap, rcv, rd, ?_⟩, .inl ?_⟩
    · unfold Fresh at fresh ⊢
      split
      · rename_i hp
        simp only [hp, if_true] at fresh
        exact ⟨fun _ => by omega, fun _ => fresh.2 (by simp [Spot.blind]; omega)⟩
      · rename_i hp
        simp only [hp] at fresh
        exact ⟨fresh.1, fun _ x => absurd x h1⟩
    · simp only [dist, Spot.weight]; omega

/-- `run()` -/
theorem Fit.run (g : M.Good c) (h : Fit M cap s c m) :
    Fit M cap (M.run s c).spot (M.run s c).conf (m.hears M.t (M.run s c).says) ∧
    (dist (M.run s c).spot (M.run s c).conf (m.hears M.t (M.run s c).says) < dist s c m ∨
      (M.run s c = ⟨s, c, []⟩ ∧ ¬ Mach.Acts s c)) := by
  cases s with
  | ready =>
    obtain ⟨h1, h2⟩ := h.ready g
    refine ⟨h1, h2.imp id fun x => ⟨x.1, ?_⟩⟩
    simp [Mach.Acts, x.2]
  | ask =>
    obtain ⟨h1, h2⟩ := h.ask g
    refine ⟨h1, h2.imp id fun x => ⟨x.1, ?_⟩⟩
    simp only [Mach.Acts]; omega
  | query =>
    obtain ⟨meet, out, came, hcap, rcv, rd, fresh⟩ := h
    obtain ⟨ph, inbox, outbox, cm, news⟩ := m
    cases ph <;> simp only [Meet] at meet
    have hs := g.query ⟨.idle, inbox, outbox, cm, news⟩ rfl
    simp only [Mach.run, Modem.hears, List.foldl_cons, List.foldl_nil, hs]
    refine ⟨⟨meet, out, came, hcap, rcv, rd, ?_⟩, .inl ?_⟩
    · unfold Fresh at fresh ⊢
      simp only [meet, if_true] at fresh ⊢
      exact ⟨fun _ => fresh.1 rfl, by simp [Spot.blind]⟩
    · simp only [dist, Spot.weight]; omega
  | prompt => exact ⟨h, .inr ⟨rfl, id⟩⟩
  | confirm => exact ⟨h, .inr ⟨rfl, id⟩⟩
  | count => exact ⟨h, .inr ⟨rfl, id⟩⟩
  | counted => exact ⟨h, .inr ⟨rfl, id⟩⟩
  | asked n => exact ⟨h, .inr ⟨rfl, id⟩⟩
  | taking b => exact ⟨h, .inr ⟨rfl, id⟩⟩
  | taken => exact ⟨h, .inr ⟨rfl, id⟩⟩

/-- An announcement. -/
theorem Fit.told (h : Fit M cap s c m) (hn : m.news = true) (hb : m.phase.busy = false) :
    Fit M cap s (M.told c m.inbox.length) { m with news := false } ∧
      dist s (M.told c m.inbox.length) { m with news := false } < dist s c m := by
  obtain ⟨meet, out, came, hcap, rcv, rd, fresh⟩ := h
  obtain ⟨ph, inbox, outbox, cm, news⟩ := m
  simp only at hn hb
  subst hn
  refine ⟨⟨?_, out, came, hcap, ?_, rd, ?_⟩, ?_⟩
  · cases s <;> cases ph <;> simp only [Meet, Phase.busy, Bool.true_eq_false] at meet hb ⊢ <;> first | exact meet | skip
    obtain ⟨h1, h2, h3, h4, h5⟩ := meet
    refine ⟨h1, h2, ?_, h4, h5⟩
    simp only at rcv
    unfold Mach.told
    dsimp only
    split <;> omega
  · unfold Mach.told
    dsimp only at rcv ⊢
    split <;> omega
  · unfold Fresh at fresh ⊢
    unfold Mach.told
    split
    · rename_i hp
      simp only [hp, if_true] at fresh ⊢
      exact ⟨fresh.1, fun _ _ => by simp⟩
    · rename_i hp
      simp [hp]
  · simp only [dist, Mach.told, if_true, Bool.false_eq_true, if_false]
    split <;> omega

/-- The server sends bytes. -/
theorem Fit.net (g : M.Good c) (h : Fit M cap s c m) (bs : List Byte) (loud : Bool) (hc : m.inbox.length + bs.length ≤ cap) :
    Fit M cap s c (m.arrive M.t bs loud) := by
  obtain ⟨meet, out, came, hcap, rcv, rd, fresh⟩ := h
  obtain ⟨ph, inbox, outbox, cm, news⟩ := m
  unfold Modem.arrive
  dsimp only at *
  refine ⟨meet, out, ?_, ?_, ?_, rd, ?_⟩
  · dsimp only
    rw [← came]; simp
  · simpa using hc
  · simp only [List.length_append]; omega
  · unfold Fresh at fresh ⊢
    split
    · rename_i hp
      simp only [hp, if_true] at fresh ⊢
      refine ⟨fresh.1, fun hb hne => ?_⟩
      by_cases hi : inbox = []
      · have hbs : bs ≠ [] := by
          intro x; apply hne; simp [hi, x]
        left; simp [hi, hbs]
      · rcases fresh.2 hb hi with x | x
        · left; simp [x]
        · right; exact x
    · rename_i hp
      have ha := g.always (by simpa using hp)
      simp only [hp] at fresh ⊢
      refine ⟨?_, fresh.2⟩
      by_cases hbs : bs = []
      · rcases fresh.1 with x | x
        · left; simp [x]
        · right; simpa [hbs] using x
      · left; simp [ha, hbs]

/-- `read()` -/
theorem Fit.read (h : Fit M cap s c m) (k : Nat) :
    Fit M cap s { c with rq := c.rq.drop k, gave := c.gave ++ c.rq.take k } m ∧
    (dist s { c with rq := c.rq.drop k, gave := c.gave ++ c.rq.take k } m < dist s c m ∨
      ({ c with rq := c.rq.drop k, gave := c.gave ++ c.rq.take k } = c ∧ ¬ (0 < k ∧ c.rq ≠ []))) := by
  obtain ⟨meet, out, came, hcap, rcv, rd, fresh⟩ := h
  refine ⟨⟨?_, out, ?_, hcap, rcv, rd, ?_⟩, ?_⟩
  · revert meet
    cases s <;> cases m.phase <;> simp only [Meet, imp_self]
    · rintro ⟨h1, h2, h3, h4, h5⟩
      refine ⟨h1, h2, h3, ?_, h5⟩
      rw [List.length_drop]; omega
    · rintro ⟨h1, h2, h3, h4⟩
      refine ⟨h1, h2, ?_, h4⟩
      rw [List.length_drop]; omega
  · rw [← came]
    dsimp only
    rw [List.append_assoc c.gave, List.take_append_drop]
  · cases s <;> exact fresh
  · by_cases hk : 0 < k ∧ c.rq ≠ []
    · left
      have := List.length_pos_iff.mpr hk.2
      simp only [dist, List.length_drop]; omega
    · right
      refine ⟨?_, hk⟩
      by_cases hr : c.rq = []
      · simp [hr]
        cases c; simp only at hr; simp [hr]
      · have : k = 0 := by
          rcases Nat.eq_zero_or_pos k with x | x
          · exact x
          · exact absurd ⟨x, hr⟩ hk
        subst this
        simp

/-- `write()` -/
theorem Fit.write (h : Fit M cap s c m) (bs : List Byte) :
    Fit M cap s { c with wq := c.wq ++ bs, took := c.took ++ bs } m := by
  obtain ⟨meet, out, came, hcap, rcv, rd, fresh⟩ := h
  refine ⟨?_, ?_, came, hcap, rcv, rd, ?_⟩
  · revert meet
    cases s <;> cases m.phase <;> simp only [Meet, imp_self]
    rintro ⟨h1, h2, h3, h4⟩
    refine ⟨h1, h2, ?_, h4⟩
    rw [List.length_append]; omega
  · dsimp only
    rw [← out]; simp
  · cases s <;> exact fresh


/-- The modem asks for the payload. -/
theorem Fit.prompt (h : Fit M cap .prompt c m) {u : List Byte} {m' : Modem} (hs : m.speak M.t = some (u, m')) :
    u = [gt] ∧ Fit M cap .confirm (Mach.paid c) (m'.hears M.t [c.wq.take c.bw]) ∧
      dist .confirm (Mach.paid c) (m'.hears M.t [c.wq.take c.bw]) < dist .prompt c m := by
  obtain ⟨meet, out, came, hcap, rcv, rd, fresh⟩ := h
  obtain ⟨ph, inbox, outbox, cm, news⟩ := m
  cases ph <;> simp only [Meet] at meet
  rename_i n
  obtain ⟨h1, h2, h3, h4⟩ := meet
  subst h1
  simp only [Modem.speak, Option.some.injEq, Prod.mk.injEq] at hs
  obtain ⟨rfl, rfl⟩ := hs
  have hl : (c.wq.take c.bw).length = c.bw := by rw [List.length_take]; omega
  simp only [Modem.hears, List.foldl_cons, List.foldl_nil, Modem.listen, hl, if_true]
  refine ⟨trivial, ⟨trivial, ?_, came, hcap, rcv, rd, ?_⟩, ?_⟩
  · show (outbox ++ c.wq.take c.bw) ++ c.wq.drop c.bw = c.took
    rw [List.append_assoc, List.take_append_drop]; exact out
  · exact fresh
  · show 101 * inbox.length + c.rq.length + 100 * (c.wq.drop c.bw).length + (if news then 30 else 0) + (if c.data then 20 else 0) + 50 <
      101 * inbox.length + c.rq.length + 100 * c.wq.length + (if news then 30 else 0) + (if c.data then 20 else 0) + 9
    rw [List.length_drop]; omega

/-- The modem confirms the payload. -/
theorem Fit.confirm (g : M.Good c) (h : Fit M cap .confirm c m) {u : List Byte} {m' : Modem} (hs : m.speak M.t = some (u, m')) :
    u = M.t.confirm ∧ Fit M cap (M.ready c).spot (M.ready c).conf (m'.hears M.t (M.ready c).says) ∧
      dist (M.ready c).spot (M.ready c).conf (m'.hears M.t (M.ready c).says) < dist .confirm c m := by
  obtain ⟨meet, out, came, hcap, rcv, rd, fresh⟩ := h
  obtain ⟨ph, inbox, outbox, cm, news⟩ := m
  cases ph <;> simp only [Meet] at meet
  simp only [Modem.speak, Option.some.injEq, Prod.mk.injEq] at hs
  obtain ⟨rfl, rfl⟩ := hs
  have hf : Fit M cap .ready c ⟨.idle, inbox, outbox, cm, news⟩ := ⟨trivial, out, came, hcap, rcv, rd, fresh⟩
  obtain ⟨h1, h2⟩ := hf.ready g
  refine ⟨rfl, h1, ?_⟩
  have e : dist .ready c ⟨.idle, inbox, outbox, cm, news⟩ < dist .confirm c ⟨.confirm, inbox, outbox, cm, news⟩ := by
    simp only [dist, Spot.weight]; omega
  rcases h2 with h2 | ⟨h2, -⟩
  · exact Nat.lt_trans h2 e
  · rw [h2]; exact e

/-- The modem tells the amount of data. -/
theorem Fit.count (h : Fit M cap .count c m) {u : List Byte} {m' : Modem} (hs : m.speak M.t = some (u, m')) :
    u = M.t.count m.inbox.length ∧ c.rcv = 0 ∧ Fit M cap .counted { c with rcv := m.inbox.length } m' ∧
      dist .counted { c with rcv := m.inbox.length } m' < dist .count c m := by
  obtain ⟨meet, out, came, hcap, rcv, rd, fresh⟩ := h
  obtain ⟨ph, inbox, outbox, cm, news⟩ := m
  cases ph <;> simp only [Meet] at meet
  simp only [Modem.speak, Option.some.injEq, Prod.mk.injEq] at hs
  obtain ⟨rfl, rfl⟩ := hs
  unfold Fresh at fresh
  simp only [meet, if_true] at fresh
  refine ⟨rfl, fresh.1 rfl, ⟨meet, out, came, hcap, Nat.le_refl _, rd, ?_⟩, ?_⟩
  · unfold Fresh
    simp only [meet, if_true]
    refine ⟨by simp [Spot.new], fun hb hi => ?_⟩
    simp only [Spot.blind, beq_iff_eq, List.length_eq_zero_iff] at hb
    exact absurd hb hi
  · simp only [dist, Spot.weight]; omega

/-- The modem is done with telling it. -/
theorem Fit.counted (g : M.Good c) (h : Fit M cap .counted c m) {u : List Byte} {m' : Modem} (hs : m.speak M.t = some (u, m')) :
    u = b!"OK\r\n" ∧ Fit M cap (M.ask c).spot (M.ask c).conf (m'.hears M.t (M.ask c).says) ∧
      dist (M.ask c).spot (M.ask c).conf (m'.hears M.t (M.ask c).says) < dist .counted c m := by
  obtain ⟨meet, out, came, hcap, rcv, rd, fresh⟩ := h
  obtain ⟨ph, inbox, outbox, cm, news⟩ := m
  cases ph <;> simp only [Meet] at meet
  simp only [Modem.speak, Option.some.injEq, Prod.mk.injEq] at hs
  obtain ⟨rfl, rfl⟩ := hs
  have hf : Fit M cap .ask c ⟨.idle, inbox, outbox, cm, news⟩ := ⟨trivial, out, came, hcap, rcv, rd, fresh⟩
  obtain ⟨h1, h2⟩ := hf.ask g
  refine ⟨rfl, h1, ?_⟩
  have e : dist .ask c ⟨.idle, inbox, outbox, cm, news⟩ < dist .counted c ⟨.done, inbox, outbox, cm, news⟩ := by
    simp only [dist, Spot.weight]; omega
  rcases h2 with h2 | ⟨h2, -⟩
  · exact Nat.lt_trans h2 e
  · rw [h2]; exact e

/-- The modem says how many bytes it gives. -/
theorem Fit.header (g : M.Good c) {n : Nat} (h : Fit M cap (.asked n) c m) {u : List Byte} {m' : Modem} (hs : m.speak M.t = some (u, m')) :
    u = M.t.header n (m.inbox.length - n) ∧ n ≤ m.inbox.length ∧ Fit M cap (.taking []) { c with rcv := c.rcv - n, rd := n } m' ∧
      dist (.taking []) { c with rcv := c.rcv - n, rd := n } m' < dist (.asked n) c m := by
  obtain ⟨meet, out, came, hcap, rcv, rd, fresh⟩ := h
  obtain ⟨ph, inbox, outbox, cm, news⟩ := m
  cases ph <;> simp only [Meet] at meet
  rename_i n
  obtain ⟨rfl, h2, h3, h4, h5⟩ := meet
  simp only at rcv hcap
  have hn : min n inbox.length = n := by omega
  simp only [Modem.speak, Option.some.injEq, Prod.mk.injEq, hn] at hs
  obtain ⟨rfl, rfl⟩ := hs
  have := g.rx
  refine ⟨rfl, by show n ≤ inbox.length; omega, ⟨⟨?_, ?_, h4, ?_⟩, out, ?_, ?_, ?_, ?_, ?_⟩, ?_⟩
  · intro x
    have := congrArg List.length x
    simp only [List.length_take, List.length_nil] at this
    omega
  · simp only [List.length_nil, List.length_take]; omega
  · show n ≤ c.rx; omega
  · simp only [Spot.part, Phase.rest, List.append_nil] at came ⊢
    rw [List.append_assoc, List.take_append_drop]; exact came
  · simp only [List.length_drop]; omega
  · simp only [List.length_drop]; omega
  · intro _ x
    have := congrArg List.length x
    simp only [Phase.rest, List.length_take, List.length_nil] at this
    omega
  · unfold Fresh at fresh ⊢
    split
    · exact ⟨by simp [Spot.new], by simp [Spot.blind]⟩
    · rename_i hp
      simp only [hp, Bool.false_eq_true, if_false] at fresh
      refine ⟨fresh.1.imp id fun x => ?_, by simp [Spot.new]⟩
      simp only [List.length_drop]; omega
  · simp only [dist, Spot.weight, Phase.rest, List.length_drop, List.length_nil, List.length_take]; omega

/-- The modem gives bytes. -/
theorem Fit.gets {b : List Byte} (h : Fit M cap (.taking b) c m) {u : List Byte} {k : Nat} {m' : Modem}
    (hs : m.give (k + 1) = some (u, m')) :
    b.length + u.length ≤ c.rd ∧ Fit M cap (Mach.gets c b u).spot (Mach.gets c b u).conf m' ∧
      dist (Mach.gets c b u).spot (Mach.gets c b u).conf m' < dist (.taking b) c m := by
  obtain ⟨meet, out, came, hcap, rcv, rd, fresh⟩ := h
  obtain ⟨ph, inbox, outbox, cm, news⟩ := m
  cases ph <;> simp only [Meet] at meet
  rename_i l
  obtain ⟨h1, h2, h3, h4⟩ := meet
  simp only [Modem.give, Option.some.injEq, Prod.mk.injEq] at hs
  obtain ⟨rfl, rfl⟩ := hs
  have hl := List.length_pos_iff.mpr h1
  have ht : (l.take (k + 1)).length = min (k + 1) l.length := List.length_take
  have hd : (l.drop (k + 1)).length = l.length - (k + 1) := List.length_drop
  unfold Fresh at fresh
  refine ⟨by omega, ?_⟩
  unfold Mach.gets
  split
  · rename_i hf
    rw [List.length_append] at hf
    have hz : l.drop (k + 1) = [] := List.length_eq_zero_iff.mp (by omega)
    have hw : l.take (k + 1) = l := by rw [← List.append_nil (l.take _), ← hz, List.take_append_drop]
    rw [if_pos hz, hw]
    refine ⟨⟨trivial, out, ?_, hcap, rcv, fun _ _ => rfl, ?_⟩, ?_⟩
    · simpa [Spot.part, Phase.rest] using came
    · unfold Fresh
      split
      · exact ⟨by simp [Spot.new], by simp [Spot.blind]⟩
      · rename_i hp
        simp only [hp, Bool.false_eq_true, if_false] at fresh
        exact ⟨fresh.1, by simp [Spot.new]⟩
    · simp only [dist, Spot.weight, Phase.rest, List.length_append]; omega
  · rename_i hf
    rw [List.length_append] at hf
    have hz : l.drop (k + 1) ≠ [] := List.length_pos_iff.mp (by omega)
    rw [if_neg hz]
    refine ⟨⟨⟨hz, ?_, h3, h4⟩, out, ?_, hcap, rcv, ?_, ?_⟩, ?_⟩
    · show (b ++ l.take (k + 1)).length + (l.drop (k + 1)).length = c.rd
      rw [List.length_append]; omega
    · simp only [Spot.part, Phase.rest] at came ⊢
      rw [← came]
      simp only [List.append_assoc]
      rw [← List.append_assoc (l.take _), List.take_append_drop]
    · intro _ x
      exact absurd x hz
    · unfold Fresh
      split
      · exact ⟨by simp [Spot.new], by simp [Spot.blind]⟩
      · rename_i hp
        simp only [hp, Bool.false_eq_true, if_false] at fresh
        exact ⟨fresh.1, by simp [Spot.new]⟩
    · simp only [dist, Spot.weight, Phase.rest, List.length_append]; omega

/-- The block is finished. -/
theorem Fit.taken (h : Fit M cap .taken c m) {u : List Byte} {m' : Modem} (hs : m.speak M.t = some (u, m')) :
    u = b!"OK\r\n" ∧ Fit M cap (M.taken c).spot (M.taken c).conf m' ∧ dist (M.taken c).spot (M.taken c).conf m' < dist .taken c m := by
  obtain ⟨meet, out, came, hcap, rcv, rd, fresh⟩ := h
  obtain ⟨ph, inbox, outbox, cm, news⟩ := m
  cases ph <;> simp only [Meet] at meet
  simp only [Modem.speak, Option.some.injEq, Prod.mk.injEq] at hs
  obtain ⟨rfl, rfl⟩ := hs
  unfold Fresh at fresh
  refine ⟨rfl, ?_⟩
  unfold Mach.taken
  by_cases hr : 0 < c.rcv
  · simp only [hr, if_true]
    refine ⟨⟨trivial, out, came, hcap, rcv, rd, ?_⟩, ?_⟩
    · unfold Fresh
      split
      · refine ⟨by simp [Spot.new], fun hb _ => ?_⟩
        simp only [Spot.blind, beq_iff_eq] at hb
        omega
      · rename_i hp
        simp only [hp, Bool.false_eq_true, if_false] at fresh
        exact ⟨fresh.1, by simp [Spot.new]⟩
    · simp only [dist, Spot.weight]; omega
  · cases hp : M.polls with
    | true =>
      simp only [hr, if_true, if_false]
      refine ⟨⟨hp, out, came, hcap, rcv, rd, ?_⟩, ?_⟩
      · unfold Fresh
        simp only [hp, if_true]
        exact ⟨fun _ => by show c.rcv = 0; omega, by simp [Spot.blind]⟩
      · simp only [dist, Spot.weight]; omega
    | false =>
      simp only [hr, Bool.false_eq_true, if_false]
      simp only [hp, Bool.false_eq_true, if_false] at fresh
      refine ⟨⟨trivial, out, came, hcap, rcv, rd, ?_⟩, ?_⟩
      · unfold Fresh
        simp only [hp, Bool.false_eq_true, if_false]
        exact ⟨fresh.1, fun _ x => absurd x hr⟩
      · simp only [dist, Spot.weight]; omega

/-! ### Parts of lines

The part of a line that has been read does not matter for the machine. -/

theorem Fit.mid (h : Fit M cap s c m) (u : List Byte) : Fit M cap s (c.mid u) m := by
  obtain ⟨meet, out, came, hcap, rcv, rd, fresh⟩ := h
  refine ⟨?_, out, came, hcap, rcv, rd, ?_⟩
  · cases s <;> exact meet
  · cases s <;> exact fresh

theorem Mach.Good.mid (g : M.Good c) (u : List Byte) : M.Good (c.mid u) :=
  ⟨g.always, g.query, g.ask, g.send, g.rx, g.tx, g.most, g.rcap, g.announce, g.confirm, g.count, g.header⟩

theorem dist_mid (u : List Byte) : dist s (c.mid u) m = dist s c m := rfl

theorem Mach.ready_part : (M.ready c).conf.part = c.part := by
  unfold Mach.ready; repeat' split
  all_goals rfl

theorem Mach.ask_part : (M.ask c).conf.part = c.part := by
  unfold Mach.ask; repeat' split
  all_goals rfl

theorem Mach.run_part : (M.run s c).conf.part = c.part := by
  cases s <;> first | rfl | exact M.ready_part | exact M.ask_part

/-- What the driver says does not change what the modem is saying. -/
theorem Modem.say_listen {t : Tongue} {a : Act} {l u : List Byte} {m' : Modem} (h : m.say t a = some (l, m')) :
    ∃ m'', (m.listen t u).say t a = some (l, m'') := by
  obtain ⟨ph, inbox, outbox, cm, news⟩ := m
  cases ph with
  | idle =>
    cases a <;> simp only [Modem.say, Modem.speak, Phase.busy, Bool.false_eq_true, if_false, true_and, reduceCtorEq, Option.some.injEq, Prod.mk.injEq] at h
    · obtain ⟨rfl, -⟩ := h
      simp only [Modem.listen]
      repeat' split
      all_goals exact ⟨_, rfl⟩
    · split at h
      · rename_i hn
        simp only [Option.some.injEq, Prod.mk.injEq] at h
        obtain ⟨rfl, -⟩ := h
        subst hn
        simp only [Modem.listen]
        repeat' split
        all_goals exact ⟨_, rfl⟩
      · cases h
  | payload n =>
    cases a <;> simp only [Modem.say, Modem.speak, Phase.busy, Bool.false_eq_true, if_false, true_and, reduceCtorEq, Option.some.injEq, Prod.mk.injEq] at h
    · obtain ⟨rfl, -⟩ := h
      simp only [Modem.listen]
      repeat' split
      all_goals exact ⟨_, rfl⟩
    · split at h
      · rename_i hn
        simp only [Option.some.injEq, Prod.mk.injEq] at h
        obtain ⟨rfl, -⟩ := h
        subst hn
        simp only [Modem.listen]
        repeat' split
        all_goals exact ⟨_, rfl⟩
      · cases h
  | _ => exact ⟨m', h⟩

theorem Modem.say_hears {t : Tongue} {a : Act} {l : List Byte} {m' : Modem} (us : List (List Byte)) (h : m.say t a = some (l, m')) :
    ∃ m'', (m.hears t us).say t a = some (l, m'') := by
  induction us generalizing m m' with
  | nil => exact ⟨m', h⟩
  | cons u us ih =>
    obtain ⟨m2, h2⟩ := Modem.say_listen (u := u) h
    exact ih h2

/-- What the modem says is not empty. -/
theorem Fit.say_ne (g : M.Good c) (h : Fit M cap s c m) {meaning : List (List Byte)} {a : Act} (ha : Fair meaning a) {l : List Byte} {m' : Modem}
    (hs : m.say M.t a = some (l, m')) : l ≠ [] := by
  have hm := h.meet
  obtain ⟨ph, inbox, outbox, cm, news⟩ := m
  cases a with
  | noise x =>
    simp only [Modem.say] at hs
    split at hs
    · cases hs
    · simp only [Option.some.injEq, Prod.mk.injEq] at hs
      rw [← hs.1]
      obtain ⟨t, e, -⟩ := ha.1.text
      rw [e]; simp
  | tell =>
    simp only [Modem.say] at hs
    split at hs
    · simp only [Option.some.injEq, Prod.mk.injEq] at hs
      rw [← hs.1]; exact g.announce _
    · cases hs
  | speak =>
    cases ph <;> simp only [Modem.say, Modem.speak, reduceCtorEq, Option.some.injEq, Prod.mk.injEq] at hs
    · rw [← hs.1]; simp
    · rw [← hs.1]; exact g.confirm
    · have hp : M.polls = true := by
        revert hm; cases s <;> simp only [Meet] <;> first | exact id | exact False.elim
      rw [← hs.1]; exact g.count hp _
    · rw [← hs.1]; simp
    · rw [← hs.1]; exact g.header _ _
  | _ => cases hs

/-- The texts of the modem. -/
inductive Telling (M : Mach) (cap : Nat) (meaning : List (List Byte)) (s : Spot) : List Byte → Prop
  | noise {l} : IsLine l → Clear meaning l → Telling M cap meaning s l
  | announce {n} : n ≤ cap → Telling M cap meaning s (M.t.announce n)
  | prompt : s = .prompt → Telling M cap meaning s [gt]
  | confirm : Telling M cap meaning s M.t.confirm
  | count {n} : M.polls = true → n ≤ cap → Telling M cap meaning s (M.t.count n)
  | done : Telling M cap meaning s b!"OK\r\n"
  | header {n k} : s = .asked n → n + k ≤ cap → Telling M cap meaning s (M.t.header n k)

theorem Fit.says (h : Fit M cap s c m) {meaning : List (List Byte)} {a : Act} (ha : Fair meaning a) {l : List Byte} {m' : Modem}
    (hs : m.say M.t a = some (l, m')) : Telling M cap meaning s l ∧ ∀ b, s ≠ .taking b := by
  have hm := h.meet
  have hcap := h.cap
  have hrcv := h.rcv
  obtain ⟨ph, inbox, outbox, cm, news⟩ := m
  have hbusy : ph.busy = false → ∀ b, s ≠ .taking b := by
    rintro hb b rfl
    revert hm hb
    cases ph <;> simp [Meet, Phase.busy]
  cases a with
  | noise x =>
    simp only [Modem.say] at hs
    split at hs
    · cases hs
    · rename_i hb
      simp only [Option.some.injEq, Prod.mk.injEq] at hs
      rw [← hs.1]
      exact ⟨.noise ha.1 ha.2, hbusy (by simpa using hb)⟩
  | tell =>
    simp only [Modem.say] at hs
    split at hs
    · rename_i hb
      simp only [Option.some.injEq, Prod.mk.injEq] at hs
      rw [← hs.1]
      exact ⟨.announce hcap, hbusy hb.1⟩
    · cases hs
  | speak =>
    cases ph <;> simp only [Modem.say, Modem.speak, reduceCtorEq, Option.some.injEq, Prod.mk.injEq] at hs
    · rw [← hs.1]
      exact ⟨.prompt (by revert hm; cases s <;> simp [Meet]), hbusy rfl⟩
    · rw [← hs.1]
      exact ⟨.confirm, hbusy rfl⟩
    · have hp : M.polls = true := by
        revert hm; cases s <;> simp only [Meet] <;> first | exact id | exact False.elim
      rw [← hs.1]
      exact ⟨.count hp hcap, hbusy rfl⟩
    · rw [← hs.1]
      exact ⟨.done, hbusy rfl⟩
    · rename_i n
      rw [← hs.1]
      have : s = .asked n ∧ n ≤ c.rcv := by
        revert hm; cases s <;> simp only [Meet] <;> first | exact False.elim | skip
        rintro ⟨rfl, -, x, -⟩
        exact ⟨rfl, x⟩
      simp only at hcap hrcv ⊢
      refine ⟨?_, hbusy rfl⟩
      have e : min n inbox.length = n := by omega
      first
        | exact .header this.1 (by omega)
        | (rw [e]; exact .header this.1 (by omega))
  | _ => cases hs

/-- A text that ends with its only end of line or prompt. -/
def Worded (l : List Byte) : Prop := ∃ t z, l = t ++ [z] ∧ nl ∉ t ∧ gt ∉ t ∧ (z = nl ∨ z = gt) ∧ t.length + 1 ≤ 60

theorem IsLine.worded {l : List Byte} (h : IsLine l) : Worded l := by
  obtain ⟨t, rfl, h1, h2, -⟩ := h.text
  have := h.len
  rw [List.length_append, List.length_singleton] at this
  exact ⟨t, nl, rfl, h1, h2, .inl rfl, this⟩

/-- What precedes the end. -/
theorem Worded.front {v w : List Byte} (h : Worded (v ++ w)) (hw : w ≠ []) : nl ∉ v ∧ gt ∉ v ∧ v.length < 60 := by
  obtain ⟨t, z, e, h1, h2, -, h3⟩ := h
  have h4 := List.dropLast_concat_getLast hw
  have h5 : v ++ w.dropLast ++ [w.getLast hw] = t ++ [z] := by rw [List.append_assoc, h4, e]
  have h6 := List.append_inj_left' h5 rfl
  refine ⟨fun x => h1 ?_, fun x => h2 ?_, ?_⟩
  · rw [← h6]; exact List.mem_append_left _ x
  · rw [← h6]; exact List.mem_append_left _ x
  · have := congrArg List.length h6
    rw [List.length_append] at this; omega

/-! ### Driver and modem -/

section
variable {S R X : Type}

/-- What can be seen of the driver. -/
structure Seen (c : Conf) (T : List (List Byte)) (d : Dev S R X) : Prop where
  utter : utter d.trace = T
  whole : Whole d.trace
  took : accepted d.trace = c.took
  gave : handed d.trace = c.gave
  conn : d.isConnected = true
  wq : d.wbuf.bytesAvailable = c.wq.length
  rq : d.rbuf.bytesAvailable = c.rq.length
  rd : d.bytesToRead = c.rd

theorem Talk.seen {c : Conf} {E : X → Prop} {T : List (List Byte)} {q : St S R} {d : Dev S R X} (h : Talk c E [] T q d)
    (hc : q.cs = .connected ∨ q.cs = .transmitting ∨ q.cs = .receiving) : Seen c T d := by
  obtain ⟨new, e, h1, h2, h3, h4⟩ := h.told
  rw [List.nil_append] at e
  rw [← e] at h1 h2 h3 h4
  refine ⟨h1, h2, h3, h4, ?_, h.wbuf.av, h.rbuf.av, h.rd⟩
  unfold Dev.isConnected
  rw [h.cs]
  rcases hc with x | x | x <;> rw [x] <;> rfl

/-- A driver that follows the machine. -/
structure Follows (M : Mach) (sc : Scene) (step : Dev S R X → Op → Dev S R X)
    (In : Spot → Conf → List (List Byte) → Dev S R X → Prop) : Prop where
  tongue : sc.tongue = M.t
  good : ∀ {s c T d}, In s c T d → M.Good c
  seen : ∀ {s c T d}, In s c T d → Seen c T d
  run : ∀ {s c T d ph}, In s c T d → Meet M s c ph →
    In (M.run s c).spot (M.run s c).conf (T ++ (M.run s c).says) (exec step d [.run true])
  /-- A piece of a line that does not complete it. -/
  more : ∀ {s c T d m a v w m'}, In s c T d → Fit M sc.cap s c m → Fair sc.meaning a → m.say M.t a = some (c.part ++ v ++ w, m') → w ≠ [] →
    In (M.run s (c.mid (c.part ++ v))).spot (M.run s (c.mid (c.part ++ v))).conf (T ++ (M.run s (c.mid (c.part ++ v))).says)
      (exec step d (hear sc.tx v 0))
  noise : ∀ {s c T d ph r}, In s c T d → Meet M s c ph → ph.busy = false → r ≠ [] → IsLine (c.part ++ r) → Clear sc.meaning (c.part ++ r) →
    In (M.run s (c.mid [])).spot (M.run s (c.mid [])).conf (T ++ (M.run s (c.mid [])).says) (exec step d (hear sc.tx r 0))
  tell : ∀ {s c T d ph r n}, In s c T d → Meet M s c ph → ph.busy = false → n ≤ sc.cap → r ≠ [] → M.t.announce n = c.part ++ r →
    In (M.run s (M.told (c.mid []) n)).spot (M.run s (M.told (c.mid []) n)).conf (T ++ (M.run s (M.told (c.mid []) n)).says)
      (exec step d (hear sc.tx r 0))
  prompt : ∀ {c T d ph r}, In .prompt c T d → Meet M .prompt c ph → r ≠ [] → [gt] = c.part ++ r →
    In .confirm (Mach.paid (c.mid [])) (T ++ [c.wq.take c.bw]) (exec step d (hear sc.tx r 0))
  confirm : ∀ {c T d r}, In .confirm c T d → r ≠ [] → M.t.confirm = c.part ++ r →
    In (M.ready (c.mid [])).spot (M.ready (c.mid [])).conf (T ++ (M.ready (c.mid [])).says) (exec step d (hear sc.tx r 0))
  count : ∀ {c T d r n}, M.polls = true → In .count c T d → c.rcv = 0 → n ≤ sc.cap → r ≠ [] → M.t.count n = c.part ++ r →
    In .counted { c.mid [] with rcv := n } T (exec step d (hear sc.tx r 0))
  counted : ∀ {c T d r}, M.polls = true → In .counted c T d → r ≠ [] → b!"OK\r\n" = c.part ++ r →
    In (M.ask (c.mid [])).spot (M.ask (c.mid [])).conf (T ++ (M.ask (c.mid [])).says) (exec step d (hear sc.tx r 0))
  header : ∀ {c T d n k ph r}, In (.asked n) c T d → Meet M (.asked n) c ph → c.rd = 0 → n ≤ k → c.rcv ≤ k → k ≤ sc.cap →
    r ≠ [] → M.t.header n (k - n) = c.part ++ r →
    In (.taking []) { c.mid [] with rcv := c.rcv - n, rd := n } T (exec step d (hear sc.tx r 0))
  gets : ∀ {c T d b l ph}, In (.taking b) c T d → Meet M (.taking b) c ph → b.length + l.length ≤ c.rd →
    In (Mach.gets c b l).spot (Mach.gets c b l).conf T (exec step d (hear sc.tx l 0))
  taken : ∀ {c T d r}, In .taken c T d → c.rd = 0 → r ≠ [] → b!"OK\r\n" = c.part ++ r →
    In (M.taken (c.mid [])).spot (M.taken (c.mid [])).conf T (exec step d (hear sc.tx r 0))
  write : ∀ {s c T d} bs, In s c T d →
    ∃ b, In s { c with wq := c.wq ++ b, took := c.took ++ b } T (exec step d [.write bs])
  read : ∀ {s c T d} k, In s c T d → In s { c with rq := c.rq.drop k, gave := c.gave ++ c.rq.take k } T (exec step d [.read k])

/-- The act is of use. -/
def Helps (s : Spot) (c : Conf) (m : Modem) : Act → Prop
  | .run => Mach.Acts s c
  | .read k => 0 < k ∧ c.rq ≠ []
  | .tell => m.phase.busy = false ∧ m.news = true
  | .speak => match m.phase with
    | .idle | .payload _ | .data _ => False
    | _ => True
  | .give _ => m.phase.busy = true
  | _ => False

/-- The modem is saying something that is of use. -/
def Useful : Option (Act × List Byte) → Prop
  | some (.tell, _) => True
  | some (.speak, _) => True
  | _ => False

/-- The act can be of use now. -/
def Ready (u : Option (Act × List Byte)) : Act → Prop
  | .run => True
  | .read _ => True
  | _ => u = none

/-- What the modem is saying, and what has arrived of it. -/
def Mid (t : Tongue) (meaning : List (List Byte)) (c : Conf) (m : Modem) : Option (Act × List Byte) → Prop
  | none => c.part = []
  | some (a, r) => r ≠ [] ∧ Fair meaning a ∧ ∃ m', m.say t a = some (c.part ++ r, m')

theorem Mid.hears {t : Tongue} {meaning : List (List Byte)} {u : Option (Act × List Byte)} (us : List (List Byte)) {c' : Conf}
    (h : Mid t meaning c m u) (hc : c'.part = c.part) : Mid t meaning c' (m.hears t us) u := by
  unfold Mid at h ⊢
  split at h
  · exact hc.trans h
  · obtain ⟨h1, h2, m', h3⟩ := h
    rw [hc]
    exact ⟨h1, h2, Modem.say_hears us h3⟩

theorem helps_mid {a : Act} (u : List Byte) : Helps s (c.mid u) m a = Helps s c m a := by
  cases a <;> cases s <;> rfl

theorem helps_same {c' : Conf} {a : Act} (h : c'.mid [] = c.mid []) : Helps s c' m a = Helps s c m a := by
  rw [← helps_mid (c := c') [], h, helps_mid]

theorem dist_same {c' : Conf} (h : c'.mid [] = c.mid []) : dist s c' m = dist s c m := by
  rw [← dist_mid (c := c') [], h, dist_mid]

variable {sc : Scene} {step : Dev S R X → Op → Dev S R X} {In : Spot → Conf → List (List Byte) → Dev S R X → Prop}
  {T : List (List Byte)} {w : World (Dev S R X)}

theorem go_eq (f : Follows M sc step In) {s' c' U} {ops : List Op} (m : Modem) (u : Option (Act × List Byte)) (h : In s c T w.drv)
    (h' : In s' c' (T ++ U) (exec step w.drv ops)) :
    World.act.go sc step w m u ops = ⟨exec step w.drv ops, m.hears M.t U, u⟩ := by
  unfold World.act.go
  dsimp only
  rw [(f.seen h).utter, (f.seen h').utter, List.drop_left, f.tongue]
  rfl

/-- What an act leaves as it is. -/
structure Kept (a : Act) (c c' : Conf) : Prop where
  wcap : c'.wcap = c.wcap
  rcap : c'.rcap = c.rcap
  took : (∀ bs, a ≠ .write bs) → c'.took = c.took
  gave : (∀ k, a ≠ .read k) → c'.gave = c.gave

theorem Kept.same {a : Act} {c' : Conf} (h1 : c'.wcap = c.wcap) (h2 : c'.rcap = c.rcap) (h3 : c'.took = c.took) (h4 : c'.gave = c.gave) :
    Kept a c c' := ⟨h1, h2, fun _ => h3, fun _ => h4⟩

theorem Mach.ready_kept {a : Act} (u : List Byte) : Kept a c (M.ready (c.mid u)).conf := by
  unfold Mach.ready; repeat' split
  all_goals exact .same rfl rfl rfl rfl

theorem Mach.ask_kept {a : Act} (u : List Byte) : Kept a c (M.ask (c.mid u)).conf := by
  unfold Mach.ask; repeat' split
  all_goals exact .same rfl rfl rfl rfl

theorem Mach.run_kept {a : Act} (u : List Byte) : Kept a c (M.run s (c.mid u)).conf := by
  cases s <;> first | exact .same rfl rfl rfl rfl | exact M.ready_kept u | exact M.ask_kept u

/-- Driver and modem after an act. -/
def Moved (M : Mach) (sc : Scene) (In : Spot → Conf → List (List Byte) → Dev S R X → Prop) (s : Spot) (c : Conf) (w : World (Dev S R X))
    (a : Act) (w' : World (Dev S R X)) : Prop :=
  ∃ s' c' T', In s' c' T' w'.drv ∧ Fit M sc.cap s' c' w'.modem ∧ Mid M.t sc.meaning c' w'.modem w'.under ∧
    (a.still = true → dist s' c' w'.modem < dist s c w.modem ∨
      (s' = s ∧ c'.mid [] = c.mid [] ∧ w'.modem = w.modem ∧ (Useful w.under → Useful w'.under) ∧
        (Ready w.under a → Helps s c w.modem a → Useful w'.under))) ∧ Kept a c c'

theorem Mach.ready_rx : (M.ready c).conf.rx = c.rx := by
  unfold Mach.ready; repeat' split
  all_goals rfl

theorem Mach.ask_rx : (M.ask c).conf.rx = c.rx := by
  unfold Mach.ask; repeat' split
  all_goals rfl

theorem Mach.run_rx : (M.run s c).conf.rx = c.rx := by
  cases s <;> first | rfl | exact M.ready_rx | exact M.ask_rx

/-- The modem listens to what the driver says. -/
def Heeds (m : Modem) (us : List (List Byte)) : Prop :=
  us = [] ∨ ∃ u, us = [u] ∧ (m.phase = .idle ∨ ∃ n, m.phase = .payload n)

theorem Mach.ready_heeds (h : m.phase = .idle) : Heeds m (M.ready c).says := by
  unfold Mach.ready; repeat' split
  · exact .inr ⟨_, rfl, .inl h⟩
  all_goals exact .inl rfl

theorem Mach.ask_heeds (h : m.phase = .idle) : Heeds m (M.ask c).says := by
  unfold Mach.ask; repeat' split
  · exact .inr ⟨_, rfl, .inl h⟩
  all_goals exact .inl rfl

/-- The modem listens when the driver says something by itself. -/
theorem Fit.listens (hf : Fit M cap s c m) {c' : Conf} : Heeds m (M.run s c').says := by
  have := hf.meet
  cases s with
  | ready => exact M.ready_heeds (by revert this; cases m.phase <;> simp [Meet])
  | ask => exact M.ask_heeds (by revert this; cases m.phase <;> simp [Meet])
  | query => exact .inr ⟨_, rfl, .inl (by revert this; cases m.phase <;> simp [Meet])⟩
  | _ => exact .inl rfl

theorem Mach.ready_takes (b : List Byte) : (M.ready c).spot ≠ .taking b := by
  unfold Mach.ready; repeat' split
  all_goals simp

theorem Mach.ask_takes (b : List Byte) : (M.ask c).spot ≠ .taking b := by
  unfold Mach.ask; repeat' split
  all_goals simp

theorem Mach.run_takes {b : List Byte} (h : (M.run s c).spot = .taking b) : s = .taking b := by
  cases s <;> first | exact h | exact absurd h (M.ready_takes b) | exact absurd h (M.ask_takes b) | cases h

/-- The modem has said something. -/
theorem completes (f : Follows M sc step In) {d : Dev S R X} (h : In s c T d) (hf : Fit M sc.cap s c m) {a : Act} (ha : Fair sc.meaning a)
    {r : List Byte} (hr : r ≠ []) {m' : Modem} (hs : m.say M.t a = some (c.part ++ r, m')) :
    ∃ o : Out, In o.spot o.conf (T ++ o.says) (exec step d (hear sc.tx r 0)) ∧ Fit M sc.cap o.spot o.conf (m'.hears M.t o.says) ∧
      o.conf.part = [] ∧ (dist o.spot o.conf (m'.hears M.t o.says) < dist s c m ∨
        (¬ Useful (some (a, r)) ∧ o.spot = s ∧ o.conf = c.mid [] ∧ m'.hears M.t o.says = m ∧ ¬ Mach.Acts s c)) ∧ (∀ b, Kept b c o.conf) ∧
        o.conf.rx = c.rx ∧ Heeds m' o.says ∧ (∀ b, o.spot = .taking b → b = [] ∧ a = .speak ∧ ∃ n, s = .asked n) := by
  have g := (f.good h).mid []
  have hf0 := hf.mid []
  cases a with
  | noise l =>
    simp only [Modem.say] at hs
    split at hs
    · cases hs
    · rename_i hb
      simp only [Option.some.injEq, Prod.mk.injEq] at hs
      obtain ⟨rfl, rfl⟩ := hs
      obtain ⟨h1, h2⟩ := hf0.run g
      refine ⟨M.run s (c.mid []), f.noise h hf.meet (by simpa using hb) hr ha.1 ha.2, h1, M.run_part, h2.imp id fun ⟨x, y⟩ => ?_,
        fun _ => M.run_kept [], M.run_rx, hf.listens,
        fun b x => absurd (M.run_takes x) ((hf.says (a := .noise _) ha (by simp only [Modem.say]; rw [if_neg hb])).2 b)⟩
      rw [x]
      exact ⟨id, rfl, rfl, rfl, fun z => y (by cases s <;> exact z)⟩
  | tell =>
    simp only [Modem.say] at hs
    split at hs
    · rename_i hb
      simp only [Option.some.injEq, Prod.mk.injEq] at hs
      obtain ⟨e, rfl⟩ := hs
      have h' := f.tell h hf.meet hb.1 hf.cap hr e
      obtain ⟨h1, h2⟩ := hf0.told hb.2 hb.1
      have g' : M.Good (M.told (c.mid []) m.inbox.length) :=
        ⟨g.always, g.query, g.ask, g.send, g.rx, g.tx, g.most, g.rcap, g.announce, g.confirm, g.count, g.header⟩
      obtain ⟨h3, h4⟩ := h1.run g'
      refine ⟨M.run s (M.told (c.mid []) m.inbox.length), h', h3, M.run_part, .inl ?_, fun b => ?_, M.run_rx, hf.listens (m := m),
        fun b x => absurd (M.run_takes x) ((hf.says (a := .tell) ha (by simp only [Modem.say]; rw [if_pos hb])).2 b)⟩
      rotate_left
      · have := M.run_kept (s := s) (a := b) (c := M.told (c.mid []) m.inbox.length) []
        exact ⟨this.wcap, this.rcap, this.took, this.gave⟩
      rcases h4 with h4 | ⟨h4, -⟩
      · exact Nat.lt_trans h4 h2
      · rw [h4]; exact h2
    · cases hs
  | speak =>
    have hs : m.speak M.t = some (c.part ++ r, m') := hs
    cases s with
    | prompt =>
      obtain ⟨e, h1, h2⟩ := hf0.prompt hs
      have hp : ∃ n, m'.phase = .payload n := by
        have := hf.meet; revert this hs; unfold Modem.speak
        cases m.phase <;> simp only [Meet, false_implies, implies_true, Option.some.injEq, Prod.mk.injEq]
        rintro ⟨-, rfl⟩ -; exact ⟨_, rfl⟩
      exact ⟨⟨_, _, _⟩, f.prompt h hf.meet hr e.symm, h1, rfl, .inl h2, fun _ => .same rfl rfl rfl rfl, rfl, .inr ⟨_, rfl, .inr hp⟩,
        fun b x => by cases x⟩
    | confirm =>
      obtain ⟨e, h1, h2⟩ := hf0.confirm g hs
      have hi : m'.phase = .idle := by
        have := hf.meet; revert this hs; unfold Modem.speak
        cases m.phase <;> simp only [Meet, false_implies, implies_true, Option.some.injEq, Prod.mk.injEq]
        rintro ⟨-, rfl⟩ _; rfl
      exact ⟨_, f.confirm h hr e.symm, h1, M.ready_part, .inl h2, fun _ => M.ready_kept [], M.ready_rx, M.ready_heeds hi,
        fun b x => absurd x (M.ready_takes b)⟩
    | count =>
      have hp : M.polls = true := by
        have := hf.meet; revert this; cases m.phase <;> simp only [Meet] <;> first | exact id | exact False.elim
      obtain ⟨e, h0, h1, h2⟩ := hf0.count hs
      exact ⟨⟨_, _, []⟩, by rw [List.append_nil]; exact f.count hp h h0 hf.cap hr e.symm, h1, rfl, .inl h2, fun _ => .same rfl rfl rfl rfl, rfl, .inl rfl,
        fun b x => by cases x⟩
    | counted =>
      have hp : M.polls = true := by
        have := hf.meet; revert this; cases m.phase <;> simp only [Meet] <;> first | exact id | exact False.elim
      obtain ⟨e, h1, h2⟩ := hf0.counted g hs
      have hi : m'.phase = .idle := by
        have := hf.meet; revert this hs; unfold Modem.speak
        cases m.phase <;> simp only [Meet, false_implies, implies_true, Option.some.injEq, Prod.mk.injEq]
        rintro ⟨-, rfl⟩ _; rfl
      exact ⟨_, f.counted hp h hr e.symm, h1, M.ask_part, .inl h2, fun _ => M.ask_kept [], M.ask_rx, M.ask_heeds hi,
        fun b x => absurd x (M.ask_takes b)⟩
    | asked n =>
      have hd : c.rd = 0 := hf.rd rfl (by
        have := hf.meet; revert this; cases m.phase <;> simp [Meet, Phase.rest])
      obtain ⟨e, h0, h1, h2⟩ := hf0.header g hs
      exact ⟨⟨_, _, []⟩, by rw [List.append_nil]; exact f.header h hf.meet hd h0 hf.rcv hf.cap hr e.symm, h1, rfl, .inl h2,
        fun _ => .same rfl rfl rfl rfl, rfl, .inl rfl, fun b x => ⟨by simpa using x.symm, rfl, n, rfl⟩⟩
    | taken =>
      have hd : c.rd = 0 := hf.rd rfl (by
        have := hf.meet; revert this; cases m.phase <;> simp [Meet, Phase.rest])
      obtain ⟨e, h1, h2⟩ := hf0.taken hs
      exact ⟨⟨(M.taken (c.mid [])).spot, (M.taken (c.mid [])).conf, []⟩, by rw [List.append_nil]; exact f.taken h hd hr e.symm, h1, rfl, .inl h2,
        fun _ => .same rfl rfl rfl rfl, rfl, .inl rfl, fun b x => by
          revert x; unfold Mach.taken; dsimp only; repeat' split
          all_goals intro x; cases x⟩
    | ready =>
      exfalso
      have := hf.meet; revert this hs; unfold Modem.speak; cases m.phase <;> simp [Meet]
    | query =>
      exfalso
      have := hf.meet; revert this hs; unfold Modem.speak; cases m.phase <;> simp [Meet]
    | ask =>
      exfalso
      have := hf.meet; revert this hs; unfold Modem.speak; cases m.phase <;> simp [Meet]
    | taking b =>
      exfalso
      have := hf.meet; revert this hs; unfold Modem.speak; cases m.phase <;> simp [Meet]
  | _ => cases hs

/-- The modem begins to say something. -/
theorem moved_begins (f : Follows M sc step In) (h : In s c T w.drv) (hf : Fit M sc.cap s c w.modem)
    (hm : Mid M.t sc.meaning c w.modem w.under) {a : Act} (ha : Fair sc.meaning a)
    (hh : Ready w.under a → Helps s c w.modem a → w.under = none ∧ Useful (some (a, [])) ∧ w.modem.say M.t a ≠ none) :
    Moved M sc In s c w a (World.act.begins sc w a) := by
  unfold World.act.begins
  rw [f.tongue]
  split
  · rename_i l m' hu hs
    refine ⟨s, c, T, h, hf, ⟨hf.say_ne (f.good h) ha hs, ha, m', ?_⟩, fun _ => .inr ⟨rfl, rfl, rfl, fun x => ?_, fun x y => ?_⟩, .same rfl rfl rfl rfl⟩
    · rw [hu] at hm
      rw [show c.part = [] from hm]; exact hs
    · rw [hu] at x; exact x.elim
    · have := (hh x y).2.1
      cases a <;> first | exact this | exact trivial
  · rename_i hn
    refine ⟨s, c, T, h, hf, hm, fun _ => .inr ⟨rfl, rfl, rfl, id, fun x y => ?_⟩, .same rfl rfl rfl rfl⟩
    obtain ⟨z1, -, z2⟩ := hh x y
    cases e : w.modem.say M.t a with
    | none => exact absurd e z2
    | some x => exact (hn x.1 x.2 z1 e).elim

theorem moved (f : Follows M sc step In) (h : In s c T w.drv) (hf : Fit M sc.cap s c w.modem)
    (hm : Mid M.t sc.meaning c w.modem w.under) (a : Act) (ha : Fair sc.meaning a) :
    Moved M sc In s c w a (w.act sc step a) := by
  have g := f.good h
  cases a with
  | run =>
    have h' := f.run h hf.meet
    obtain ⟨h1, h2⟩ := hf.run g
    show Moved _ _ _ _ _ _ _ (World.act.go sc step w w.modem w.under _)
    rw [go_eq f _ _ h h']
    refine ⟨_, _, _, h', h1, hm.hears _ M.run_part, fun _ => h2.imp id fun ⟨x, y⟩ => ?_,
      M.run_kept c.part⟩
    rw [x]
    exact ⟨rfl, rfl, rfl, id, fun _ z => absurd z y⟩
  | write bs =>
    obtain ⟨b, h'⟩ := f.write bs h
    show Moved _ _ _ _ _ _ _ (World.act.go sc step w w.modem w.under _)
    rw [go_eq (U := []) f _ _ h (by rw [List.append_nil]; exact h')]
    exact ⟨_, _, _, h', hf.write b, hm.hears [] rfl, (fun x => by cases x), rfl, rfl, fun x => absurd rfl (x bs), fun _ => rfl⟩
  | read k =>
    have h' := f.read k h
    obtain ⟨h1, h2⟩ := hf.read k
    show Moved _ _ _ _ _ _ _ (World.act.go sc step w w.modem w.under _)
    rw [go_eq (U := []) f _ _ h (by rw [List.append_nil]; exact h')]
    exact ⟨_, _, _, h', h1, hm.hears [] rfl, fun _ => h2.imp id fun ⟨x, y⟩ => ⟨rfl, by rw [x], rfl, id, fun _ z => absurd z y⟩,
      rfl, rfl, fun _ => rfl, fun x => absurd rfl (x k)⟩
  | noise l => exact moved_begins f h hf hm ha fun _ x => x.elim
  | tell =>
    refine moved_begins f h hf hm ha fun x y => ⟨x, trivial, ?_⟩
    have y : w.modem.phase.busy = false ∧ w.modem.news = true := y
    simp only [Modem.say, if_pos y]; simp
  | speak =>
    refine moved_begins f h hf hm ha fun x y => ⟨x, trivial, ?_⟩
    revert y
    simp only [Modem.say]
    unfold Modem.speak Helps
    cases w.modem.phase <;> simp
  | net bs loud =>
    show Moved _ _ _ _ _ _ _ (if _ then _ else w)
    split
    · rename_i hc
      refine ⟨_, _, _, h, ?_, ?_, (fun x => by cases x), .same rfl rfl rfl rfl⟩
      · dsimp only
        rw [f.tongue]
        exact hf.net g bs loud hc.2
      · dsimp only
        have := hm
        rw [hc.1] at this ⊢
        exact this
    · exact ⟨_, _, _, h, hf, hm, (fun x => by cases x), .same rfl rfl rfl rfl⟩
  | pass k =>
    cases hu : w.under with
    | none =>
      have e : w.act sc step (.pass k) = w := by simp only [World.act, hu]
      rw [e]
      exact ⟨_, _, _, h, hf, hm, fun _ => .inr ⟨rfl, rfl, rfl, id, fun _ y => y.elim⟩, .same rfl rfl rfl rfl⟩
    | some x =>
      obtain ⟨a, l⟩ := x
      have hm0 := hm
      rw [hu] at hm0
      obtain ⟨h1, h2, m', h3⟩ := hm0
      by_cases hd : l.drop (k + 1) = []
      · have e : w.act sc step (.pass k) = World.act.go sc step w m' none (hear sc.tx l 0) := by
          simp only [World.act, hu, f.tongue, h3, hd, if_true]; rfl
        obtain ⟨o, o1, o2, o3, o4, o5, -⟩ := completes f h hf h2 h1 h3
        rw [e, go_eq f _ _ h o1]
        refine ⟨_, _, _, o1, o2, o3, fun _ => o4.imp id fun ⟨x1, x2, x3, x4, _⟩ => ⟨x2, by rw [x3], x4, fun x => ?_, fun _ y => y.elim⟩, o5 _⟩
        rw [hu] at x
        exact absurd x x1
      · have e : w.act sc step (.pass k) = World.act.go sc step w w.modem (some (a, l.drop (k + 1))) (hear sc.tx (l.take (k + 1)) 0) := by
          simp only [World.act, hu, hd, if_false]
        have h4 : w.modem.say M.t a = some (c.part ++ l.take (k + 1) ++ l.drop (k + 1), m') := by
          rw [List.append_assoc, List.take_append_drop]; exact h3
        have h' := f.more h hf h2 h4 hd
        obtain ⟨f1, f2⟩ := (hf.mid (c.part ++ l.take (k + 1))).run (g.mid _)
        rw [e, go_eq f _ _ h h']
        refine ⟨_, _, _, h', f1, ?_, fun _ => f2.imp id fun ⟨x, y⟩ => ?_, M.run_kept _⟩
        · refine ⟨hd, h2, ?_⟩
          rw [M.run_part]
          exact Modem.say_hears _ h4
        · rw [x]
          refine ⟨rfl, rfl, rfl, fun z => ?_, fun _ y => y.elim⟩
          rw [hu] at z
          cases a <;> first | exact z | exact trivial
  | give k =>
    have e : w.act sc step (.give k) = match w.under, w.modem.give (k + 1) with
      | none, some (l, m) => World.act.go sc step w m none (hear sc.tx l 0)
      | _, _ => w := rfl
    rw [e]
    split
    · rename_i u m' hu hs
      have ht : ∃ b, s = .taking b := by
        have := hf.meet; revert this hs
        unfold Modem.give
        cases s <;> cases w.modem.phase <;> simp [Meet]
      obtain ⟨b, rfl⟩ := ht
      obtain ⟨h0, h1, h2⟩ := hf.gets hs
      have h' := f.gets h hf.meet h0
      rw [go_eq (U := []) f _ _ h (by rw [List.append_nil]; exact h')]
      refine ⟨_, _, _, h', h1, ?_, fun _ => .inl h2, ?_⟩
      rotate_left
      · unfold Mach.gets
        split <;> exact .same rfl rfl rfl rfl
      have hm0 := hm
      rw [hu] at hm0
      show (Mach.gets c b u).conf.part = []
      unfold Mach.gets
      split <;> exact hm0
    · rename_i hn
      refine ⟨_, _, _, h, hf, hm, fun _ => .inr ⟨rfl, rfl, rfl, id, fun x y => ?_⟩, .same rfl rfl rfl rfl⟩
      exfalso
      have x : w.under = none := x
      have y : w.modem.phase.busy = true := y
      cases hg : w.modem.give (k + 1) with
      | some z => exact hn z.1 z.2 x hg
      | none =>
        revert hg y
        unfold Modem.give Phase.busy
        cases w.modem.phase <;> simp

/-- Driver and modem are in step. -/
def Joined (M : Mach) (sc : Scene) (In : Spot → Conf → List (List Byte) → Dev S R X → Prop) (w : World (Dev S R X)) : Prop :=
  ∃ s c T, In s c T w.drv ∧ Fit M sc.cap s c w.modem ∧ Mid M.t sc.meaning c w.modem w.under

/-- Over any history, driver and modem stay in step. -/
theorem Joined.acts (f : Follows M sc step In) (h : Joined M sc In w) (as : List Act) (ha : ∀ a ∈ as, Fair sc.meaning a) :
    Joined M sc In (w.acts sc step as) := by
  induction as generalizing w with
  | nil => exact h
  | cons a as ih =>
    obtain ⟨s, c, T, h1, h2, h3⟩ := h
    obtain ⟨s', c', T', h4, h5, h6, -⟩ := moved f h1 h2 h3 a (ha a (List.mem_cons_self ..))
    exact ih (w := w.act sc step a) ⟨s', c', T', h4, h5, h6⟩ fun b hb => ha b (List.mem_cons_of_mem _ hb)

/-- Nothing is left to do. -/
structure Over (s : Spot) (c : Conf) (m : Modem) : Prop where
  spot : s = .ready
  wq : c.wq = []
  rq : c.rq = []
  data : c.data = false
  rcv : c.rcv = 0
  rd : c.rd = 0
  phase : m.phase = .idle
  inbox : m.inbox = []
  news : m.news = false

/-- If nothing helps, all is done. -/
theorem over_of (g : M.Good c) (hf : Fit M cap s c m) {k k' : Nat} (h1 : ¬ Helps s c m .run) (hk : 0 < k)
    (h2 : ¬ Helps s c m (.read k)) (h3 : ¬ Helps s c m .tell) (h4 : ¬ Helps s c m .speak) (h5 : ¬ Helps s c m (.give k')) :
    Over s c m := by
  obtain ⟨meet, out, came, hcap, rcv, rd, fresh⟩ := hf
  obtain ⟨ph, inbox, outbox, cm, news⟩ := m
  have hr : c.rq = [] := by
    cases hq : c.rq with
    | nil => rfl
    | cons x l => exact absurd ⟨hk, by rw [hq]; simp⟩ h2
  have hg := g.rcap
  cases s <;> cases ph <;> simp only [Meet, Helps, Phase.busy, Mach.Acts, not_true_eq_false] at meet h1 h3 h4 h5
  · rw [not_or] at h1
    have hw : c.wq = [] := by simpa using h1.1
    have hd : c.data = false := by simpa using h1.2
    have hn : news = false := by simpa using h3
    subst hn
    unfold Fresh at fresh
    have : inbox = [] ∧ c.rcv = 0 := by
      split at fresh
      · refine ⟨?_, fresh.1 rfl⟩
        cases inbox with
        | nil => rfl
        | cons x l =>
          rcases fresh.2 rfl (by simp) with y | y
          · cases y
          · rw [hd] at y; cases y
      · have h0 : c.rcv = 0 := by
          rcases Nat.eq_zero_or_pos c.rcv with x | x
          · exact x
          · have := fresh.2 rfl x
            rw [hd] at this; cases this
        refine ⟨?_, h0⟩
        rcases fresh.1 with y | y
        · cases y
        · rw [h0] at y
          exact List.length_eq_zero_iff.mp y.symm
    exact ⟨rfl, hw, hr, hd, this.2, rd rfl rfl, rfl, this.1, rfl⟩
  · rw [hr] at h1
    simp only [List.length_nil] at h1
    omega

/-- Then nothing more happens. -/
theorem Over.stays {s' c' m'} (h : Over s c m) (hf : Fit M cap s' c' m') (hd : dist s' c' m' < dist s c m) : False := by
  have e : dist s c m = 10 := by
    obtain ⟨rfl, h1, h2, h3, h4, -, h5, h6, h7⟩ := h
    simp [dist, h1, h2, h3, h6, h7, Spot.weight]
  have hm := hf.meet
  rw [e] at hd
  unfold dist at hd
  revert hm hd
  cases s' <;> simp only [Spot.weight] <;> try (intros; omega)
  intro hd hm
  revert hm
  cases m'.phase <;> simp only [Meet] <;> first | exact False.elim | skip
  rintro ⟨h2, h3, h4, h5⟩
  omega

theorem over_mid {c' : Conf} (h : c'.mid [] = c.mid []) (ho : Over s c m) : Over s c' m := by
  obtain ⟨h1, h2, h3, h4, h5, h6, h7, h8, h9⟩ := ho
  exact ⟨h1, (congrArg Conf.wq h).trans h2, (congrArg Conf.rq h).trans h3, (congrArg Conf.data h).trans h4, (congrArg Conf.rcv h).trans h5,
    (congrArg Conf.rd h).trans h6, h7, h8, h9⟩

/-- A round brings driver and modem nearer to the end. -/
theorem Joined.round (f : Follows M sc step In) {as : List Act} (ha : ∀ a ∈ as, Fair sc.meaning a) (hs : ∀ a ∈ as, a.still = true)
    (h : In s c T w.drv) (hf : Fit M sc.cap s c w.modem) (hm : Mid M.t sc.meaning c w.modem w.under) :
    ∃ s' c' T', In s' c' T' (w.acts sc step as).drv ∧ Fit M sc.cap s' c' (w.acts sc step as).modem ∧
      Mid M.t sc.meaning c' (w.acts sc step as).modem (w.acts sc step as).under ∧
      (dist s' c' (w.acts sc step as).modem < dist s c w.modem ∨
        (s' = s ∧ c'.mid [] = c.mid [] ∧ (w.acts sc step as).modem = w.modem ∧
          (Useful w.under → Useful (w.acts sc step as).under) ∧
          ∀ u a v, as = u ++ a :: v → Ready (w.acts sc step u).under a → Helps s c w.modem a → Useful (w.acts sc step as).under)) ∧
      c'.wcap = c.wcap ∧ c'.rcap = c.rcap ∧ ((∀ a ∈ as, ∀ bs, a ≠ .write bs) → c'.took = c.took) ∧
      ((∀ a ∈ as, ∀ k, a ≠ .read k) → c'.gave = c.gave) := by
  induction as generalizing s c T w with
  | nil => exact ⟨s, c, T, h, hf, hm, .inr ⟨rfl, rfl, rfl, id, by simp⟩, rfl, rfl, fun _ => rfl, fun _ => rfl⟩
  | cons a as ih =>
    obtain ⟨s1, c1, T1, h1, h2, hm1, h3, k1⟩ := moved f h hf hm a (ha a (List.mem_cons_self ..))
    obtain ⟨s2, c2, T2, h4, h5, hm2, h6, k2, k3, k4, k5⟩ :=
      ih (fun b hb => ha b (List.mem_cons_of_mem _ hb)) (fun b hb => hs b (List.mem_cons_of_mem _ hb)) h1 h2 hm1
    refine ⟨s2, c2, T2, h4, h5, hm2, ?_, k2.trans k1.wcap, k3.trans k1.rcap,
      fun x => (k4 fun b hb => x b (List.mem_cons_of_mem _ hb)).trans (k1.took (x a (List.mem_cons_self ..))),
      fun x => (k5 fun b hb => x b (List.mem_cons_of_mem _ hb)).trans (k1.gave (x a (List.mem_cons_self ..)))⟩
    show dist s2 c2 ((w.act sc step a).acts sc step as).modem < _ ∨ (_ ∧ _ ∧ ((w.act sc step a).acts sc step as).modem = _ ∧
      (_ → Useful ((w.act sc step a).acts sc step as).under) ∧ ∀ u b v, _ → _ → _ → Useful ((w.act sc step a).acts sc step as).under)
    rcases h3 (hs a (List.mem_cons_self ..)) with x | ⟨rfl, x1, x2, x3, x4⟩
    · left
      rcases h6 with z | ⟨rfl, z1, z2, -⟩
      · exact Nat.lt_trans z x
      · rw [z2, dist_same z1]; exact x
    · rw [x2] at h6
      rcases h6 with z | ⟨z1, z2, z3, z4, z5⟩
      · rw [dist_same x1] at z
        exact .inl z
      · refine .inr ⟨z1, z2.trans x1, z3, fun y => z4 (x3 y), fun u b v e y1 y2 => ?_⟩
        cases u with
        | nil =>
          simp only [List.nil_append, List.cons.injEq] at e
          obtain ⟨rfl, rfl⟩ := e
          exact z4 (x4 y1 y2)
        | cons b' u =>
          simp only [List.cons_append, List.cons.injEq] at e
          obtain ⟨rfl, e⟩ := e
          exact z5 u b v e y1 (by rw [helps_same x1]; exact y2)

/-- After enough rounds, all is done. -/
theorem Joined.rounds (f : Follows M sc step In) (rs : List (List Act)) (ha : ∀ as ∈ rs, ∀ a ∈ as, Fair sc.meaning a)
    (hr : Rounds sc step w rs) (h : In s c T w.drv) (hf : Fit M sc.cap s c w.modem) (hm : Mid M.t sc.meaning c w.modem w.under)
    (hn : Over s c w.modem ∨ dist s c w.modem < rs.length) :
    ∃ s' c' T', In s' c' T' (w.acts sc step rs.flatten).drv ∧ Fit M sc.cap s' c' (w.acts sc step rs.flatten).modem ∧
      Mid M.t sc.meaning c' (w.acts sc step rs.flatten).modem (w.acts sc step rs.flatten).under ∧
      Over s' c' (w.acts sc step rs.flatten).modem := by
  induction rs generalizing s c T w with
  | nil =>
    rcases hn with hn | hn
    · exact ⟨s, c, T, h, hf, hm, hn⟩
    · exact absurd hn (Nat.not_lt_zero _)
  | cons as rs ih =>
    cases hr with
    | cons r hr =>
    obtain ⟨s1, c1, T1, h1, h2, hm1, h3, -⟩ := Joined.round f (ha as (List.mem_cons_self ..)) r.still h hf hm
    have e : w.acts sc step (as :: rs).flatten = (w.acts sc step as).acts sc step rs.flatten := by
      unfold World.acts
      rw [List.flatten_cons, List.foldl_append]
    rw [e]
    refine ih (fun b hb => ha b (List.mem_cons_of_mem _ hb)) hr h1 h2 hm1 ?_
    rcases h3 with x | ⟨rfl, x1, x2, -, y⟩
    · rcases hn with hn | hn
      · exact (hn.stays h2 x).elim
      · right
        simp only [List.length_cons] at hn
        omega
    · left
      rw [x2]
      refine over_mid x1 ?_
      rw [r.ends] at y
      have y : ∀ u a v, as = u ++ a :: v → Ready (w.acts sc step u).under a → ¬ Helps s1 c w.modem a := fun u a v z1 z2 z3 => y u a v z1 z2 z3
      obtain ⟨k, hk, hr1⟩ := r.read
      obtain ⟨u1, v1, r1⟩ := List.append_of_mem r.run
      obtain ⟨u2, v2, r2⟩ := List.append_of_mem hr1
      obtain ⟨u3, _, v3, r3, rfl, e3⟩ := r.tell
      obtain ⟨u4, _, v4, r4, rfl, e4⟩ := r.speak
      obtain ⟨u5, _, v5, r5, ⟨k', rfl⟩, e5⟩ := r.give
      exact over_of (f.good h) hf (y _ _ _ r1 trivial) hk (y _ _ _ r2 trivial) (y _ _ _ r3 e3) (y _ _ _ r4 e4) (y _ _ _ r5 e5)

theorem Rounds.ends {rs : List (List Act)} (h : Rounds sc step w rs) (hn : rs ≠ [] ∨ w.under = none) :
    (w.acts sc step rs.flatten).under = none := by
  induction rs generalizing w with
  | nil =>
    rcases hn with hn | hn
    · exact absurd rfl hn
    · exact hn
  | cons as rs ih =>
    cases h with
    | cons r hr =>
    have e : w.acts sc step (as :: rs).flatten = (w.acts sc step as).acts sc step rs.flatten := by
      unfold World.acts
      rw [List.flatten_cons, List.foldl_append]
    rw [e]
    exact ih hr (.inr r.ends)

theorem Fit.block (h : Fit M cap s c m) : s.part.length + m.phase.rest.length = c.rd := by
  by_cases h1 : s.part = [] ∧ m.phase.rest = []
  · rw [h.rd h1.1 h1.2, h1.1, h1.2]; rfl
  · have := h.meet
    obtain ⟨ph, inbox, outbox, cm, news⟩ := m
    cases s <;> cases ph <;> simp only [Meet] at this <;>
      first | (exact absurd ⟨rfl, rfl⟩ h1) | exact this.2.1

theorem Joined.sound (f : Follows M sc step In) (h : Joined M sc In w) : w.Sound := by
  obtain ⟨s, c, T, h1, h2, -⟩ := h
  have v := f.seen h1
  have hb := h2.block
  refine ⟨?_, ?_, ?_, ?_, v.conn, v.whole⟩
  · rw [v.took]; exact ⟨_, h2.out⟩
  · rw [v.took, v.wq, ← h2.out, List.length_append]
  · rw [v.gave, ← h2.came, List.append_assoc, List.append_assoc, List.append_assoc]; exact List.prefix_append _ _
  · rw [v.gave, v.rq, v.rd, ← h2.came]
    simp only [List.length_append]; omega

theorem Joined.settles (f : Follows M sc step In) (h : Joined M sc In w) (rs : List (List Act)) (ha : ∀ as ∈ rs, ∀ a ∈ as, Fair sc.meaning a)
    (hr : Rounds sc step w rs) (hn : w.effort ≤ rs.length) :
    ∃ s' c' T', In s' c' T' (w.acts sc step rs.flatten).drv ∧ Fit M sc.cap s' c' (w.acts sc step rs.flatten).modem ∧
      c'.part = [] ∧ Over s' c' (w.acts sc step rs.flatten).modem := by
  obtain ⟨s, c, T, h1, h2, h3⟩ := h
  have v := f.seen h1
  have hb := h2.block
  have he := hr.ends (.inl (by rintro rfl; unfold World.effort at hn; simp at hn))
  suffices hd : dist s c w.modem < rs.length by
    obtain ⟨s', c', T', x1, x2, x3, x4⟩ := Joined.rounds f rs ha hr h1 h2 h3 (.inr hd)
    rw [he] at x3
    exact ⟨s', c', T', x1, x2, x3, x4⟩
  unfold World.effort at hn
  rw [v.wq, v.rq, v.rd] at hn
  have : s.weight w.modem.phase ≤ 60 + 2 * c.rd := by
    cases s <;> simp only [Spot.weight, Spot.part] at hb ⊢ <;> omega
  unfold dist
  have : (if w.modem.news = true then 30 else 0) ≤ 30 := by split <;> omega
  have : (if c.data = true then 20 else 0) ≤ 20 := by split <;> omega
  omega

theorem Over.settled (f : Follows M sc step In) (h1 : In s c T w.drv) (h2 : Fit M sc.cap s c w.modem) (h : Over s c w.modem) :
    w.Settled := by
  have v := f.seen h1
  have h3 := h2.out
  have h4 := h2.came
  rw [h.wq, List.append_nil] at h3
  rw [h.rq, h.inbox, h.spot, h.phase] at h4
  refine ⟨h3.trans v.took.symm, v.gave.trans ?_, v.conn⟩
  simpa [Spot.part, Phase.rest] using h4

end

end Verif.Spec
