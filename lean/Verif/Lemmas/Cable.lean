import Verif.Lemmas.Path
import Verif.Lemmas.Early

/-!
Driver and modem at both ends of a cable. The modem is compared with the driver as if everything on its way was not yet said.
-/

namespace Verif

/-- Emptying the transmit buffer does not depend on what has arrived. -/
theorem Ser.more_drain (s : Ser) (y : List Byte) (n : Nat) :
    (s.more y).transfers (List.replicate n ⟨none, true⟩) = (s.transfers (List.replicate n ⟨none, true⟩)).more y := by
  have h1 : ∀ s : Ser, (s.more y).transfer ⟨none, true⟩ = (s.transfer ⟨none, true⟩).more y := by
    intro s
    by_cases h : s.tx.ring.bytesAvailable ≠ 0
    · show (if (s.more y).tx.ring.bytesAvailable ≠ 0 then _ else _) = (if s.tx.ring.bytesAvailable ≠ 0 then _ else _ : Ser).more y
      rw [if_pos h, if_pos (show (s.more y).tx.ring.bytesAvailable ≠ 0 from h)]; rfl
    · show (if (s.more y).tx.ring.bytesAvailable ≠ 0 then _ else _) = (if s.tx.ring.bytesAvailable ≠ 0 then _ else _ : Ser).more y
      rw [if_neg h, if_neg (show ¬ (s.more y).tx.ring.bytesAvailable ≠ 0 from h)]; rfl
  induction n generalizing s with
  | zero => rfl
  | succ n ih =>
    show ((s.more y).transfer ⟨none, true⟩).transfers (List.replicate n ⟨none, true⟩) =
      ((s.transfer ⟨none, true⟩).transfers (List.replicate n ⟨none, true⟩)).more y
    rw [h1]
    exact ih _

/-- Nothing to send. -/
theorem Ser.drain_idle {s : Ser} (h : s.tx.ring.bytesAvailable = 0) (n : Nat) : s.transfers (List.replicate n ⟨none, true⟩) = s := by
  have h1 : s.transfer ⟨none, true⟩ = s := by
    show (if s.tx.ring.bytesAvailable ≠ 0 then _ else s) = s
    rw [if_neg (fun x => x h)]
  induction n with
  | zero => rfl
  | succ n ih =>
    show (s.transfer ⟨none, true⟩).transfers (List.replicate n ⟨none, true⟩) = s
    rw [h1]; exact ih

namespace Spec

open Dev

/-- What is on its way after the part of a line that the driver has read. -/
inductive Flight (t : Tongue) (cap : Nat) (meaning : List (List Byte)) (c : Conf) (ml : Modem) : List Byte → Nat → Bool → Modem → Prop
  | between {z k v m} : c.part = [] → Path t cap meaning ml z k v m → Flight t cap meaning c ml z k v m
  | within {a r m1 x k v m} : Fair meaning a → ml.say t a = some (c.part ++ r, m1) → r ≠ [] → Path t cap meaning m1 x k v m →
      Flight t cap meaning c ml (r ++ x) k (v || a.useful) m

variable {M : Mach} {t : Tongue} {cap : Nat} {meaning : List (List Byte)} {s : Spot} {c c' : Conf} {m ml m1 m2 : Modem} {x y z : List Byte}
  {k k' : Nat} {v v' : Bool}

theorem Flight.append (h : Flight t cap meaning c ml z k v m) (h' : Path t cap meaning m x k' v' m2) :
    Flight t cap meaning c ml (z ++ x) (k + k') (v || v') m2 := by
  cases h with
  | between h1 h2 => exact .between h1 (h2.trans h')
  | within h1 h2 h3 h4 =>
    have := Flight.within h1 h2 h3 (h4.trans h')
    rw [← List.append_assoc, Bool.or_right_comm] at this
    exact this

theorem say_quiet {a : Act} {l : List Byte} (hs : m.say t a = some (l, m1)) (ha : a.useful = false) : m1 = m := by
  cases a with
  | noise l =>
    simp only [Modem.say] at hs
    split at hs
    · cases hs
    · simp only [Option.some.injEq, Prod.mk.injEq] at hs
      exact hs.2.symm
  | tell => cases ha
  | speak => cases ha
  | _ => cases hs

theorem say_stock {a : Act} {l : List Byte} (hs : m.say t a = some (l, m1)) :
    m1.outbox = m.outbox ∧ m1.came = m.came ∧ m1.inbox.length ≤ m.inbox.length := by
  obtain ⟨ph, inbox, outbox, cm, news⟩ := m
  cases a with
  | noise x =>
    simp only [Modem.say] at hs
    split at hs
    · cases hs
    · simp only [Option.some.injEq, Prod.mk.injEq] at hs
      obtain ⟨-, rfl⟩ := hs
      exact ⟨rfl, rfl, Nat.le_refl _⟩
  | tell =>
    simp only [Modem.say] at hs
    split at hs
    · simp only [Option.some.injEq, Prod.mk.injEq] at hs
      obtain ⟨-, rfl⟩ := hs
      exact ⟨rfl, rfl, Nat.le_refl _⟩
    · cases hs
  | speak =>
    cases ph <;> simp only [Modem.say, Modem.speak, reduceCtorEq, Option.some.injEq, Prod.mk.injEq] at hs <;> obtain ⟨-, rfl⟩ := hs <;>
      first | exact ⟨rfl, rfl, Nat.le_refl _⟩ | exact ⟨rfl, rfl, by simp⟩
  | _ => cases hs

theorem Flight.quiet (h : Flight t cap meaning c ml z k false m) : m = ml := by
  generalize hv : false = v at h
  cases h with
  | between h1 h2 => subst hv; exact h2.quiet.1
  | @within a r m1 x k v m h1 h2 h3 h4 =>
    have h5 : v = false ∧ a.useful = false := by simpa using hv.symm
    obtain ⟨rfl, h5⟩ := h5
    rw [h4.quiet.1, say_quiet h2 h5]

theorem Flight.sane (h : Flight t cap meaning c ml z k v m) (hs : Sane M ml) : Sane M m := by
  cases h with
  | between h1 h2 => exact h2.sane hs
  | within h1 h2 h3 h4 => exact h4.sane (sane_say hs h2)

theorem Flight.stock (h : Flight t cap meaning c ml z k v m) :
    m.outbox = ml.outbox ∧ ∃ z, m.came = ml.came ++ z ∧ m.inbox.length ≤ ml.inbox.length + z.length ∧ k = 132 * z.length := by
  cases h with
  | between h1 h2 => exact h2.stock
  | within h1 h2 h3 h4 =>
    obtain ⟨a1, a2, a3⟩ := say_stock h2
    obtain ⟨b1, z, b2, b3, b4⟩ := h4.stock
    exact ⟨b1.trans a1, z, by rw [b2, a2], by omega, b4⟩

theorem Heeds.open {us : List (List Byte)} (h : Heeds m us) : us = [] ∨ ∃ u, us = [u] ∧ m.phase.open = true := by
  rcases h with h | ⟨u, h, h1⟩
  · exact .inl h
  · refine .inr ⟨u, h, ?_⟩
    rcases h1 with h1 | ⟨n, h1⟩ <;> rw [h1] <;> rfl

theorem Path.hears {us : List (List Byte)} (h : Path t cap meaning m x k v m1) (hu : Heeds m us) :
    Path t cap meaning (m.hears t us) x k v (m1.hears t us) := by
  rcases hu.open with rfl | ⟨u, rfl, h1⟩
  · exact h
  · exact h.listen h1 u

theorem Flight.hears {us : List (List Byte)} (h : Flight t cap meaning c ml x k v m1) (hc : c'.part = c.part) (hu : Heeds ml us) :
    Flight t cap meaning c' (ml.hears t us) x k v (m1.hears t us) := by
  cases h with
  | between h1 h2 => exact .between (hc.trans h1) (h2.hears hu)
  | within h1 h2 h3 h4 =>
    rw [← hc] at h2
    rcases hu.open with rfl | ⟨u, rfl, h5⟩
    · exact .within h1 h2 h3 h4
    · obtain ⟨h6, h7⟩ := say_open (u := u) h5 h2
      exact .within h1 h7 h3 (h4.listen h6 u)

theorem dist_net (bs : List Byte) (loud : Bool) (hb : bs ≠ []) :
    dist s c (ml.arrive t bs loud) < dist s c ml + 132 * bs.length := by
  have := List.length_pos_iff.mpr hb
  have e : (ml.arrive t bs loud).phase = ml.phase := rfl
  have e1 : (ml.arrive t bs loud).inbox.length = ml.inbox.length + bs.length := by simp [Modem.arrive]
  unfold dist
  rw [e, e1]
  have : (if (ml.arrive t bs loud).news = true then 30 else 0) ≤ 30 := by split <;> omega
  omega

/-- The next text of the modem. -/
theorem Flight.head (g : M.Good c) (hs : ∀ b, s ≠ .taking b) (hf : Fit M cap s c ml) (h : Flight M.t cap meaning c ml z k v m) (hz : z ≠ []) :
    ∃ ml' k' a r m1 x v0, Fit M cap s c ml' ∧ Fair meaning a ∧ ml'.say M.t a = some (c.part ++ r, m1) ∧ r ≠ [] ∧ z = r ++ x ∧
      Path M.t cap meaning m1 x k' v0 m ∧
      ((ml' = ml ∧ k' = k ∧ v = (v0 || a.useful)) ∨ dist s c ml' + k' < dist s c ml + k) := by
  cases h with
  | @within a r m1 x k v m h1 h2 h3 h4 => exact ⟨ml, k, a, r, m1, x, v, hf, h1, h2, h3, rfl, h4, .inl ⟨rfl, rfl, rfl⟩⟩
  | between h1 h2 =>
    induction h2 with
    | nil => exact absurd rfl hz
    | @net m bs loud x k v m' i1 i2 i3 ih =>
      obtain ⟨ml', k', a, r, m1, x', v0, j1, j2, j3, j4, j5, j6, j7⟩ := ih (hf.net g bs loud i2) hz
      refine ⟨ml', k', a, r, m1, x', v0, j1, j2, j3, j4, j5, j6, .inr ?_⟩
      have := dist_net (s := s) (c := c) (t := M.t) (ml := m) bs loud i1
      rcases j7 with ⟨rfl, rfl, -⟩ | j7 <;> omega
    | @say m a l m1 x k v m' i1 i2 i3 i4 ih =>
      exact ⟨m, k, a, l, m1, x, v, hf, i1, by rw [h1]; exact i3, i2, rfl, i4, .inl ⟨rfl, rfl, rfl⟩⟩
    | @give m z m1 x k v m' i1 i2 ih =>
      exfalso
      have hm := hf.meet
      revert i1 hm
      unfold Modem.give
      cases m.phase <;> cases s <;> simp only [Meet, reduceCtorEq, false_implies, implies_true]
      exact absurd rfl (hs _)

/-- A byte of a block. -/
theorem Path.bite {b : List Byte} {z : Byte} (g : M.Good c) (hf : Fit M cap (.taking b) c ml)
    (h : Path M.t cap meaning ml (z :: x) k v m) :
    ∃ ml' k' v', Path M.t cap meaning ml' x k' v' m ∧ Fit M cap (Mach.gets c b [z]).spot (Mach.gets c b [z]).conf ml' ∧
      dist (Mach.gets c b [z]).spot (Mach.gets c b [z]).conf ml' + k' < dist (.taking b) c ml + k := by
  generalize hy : z :: x = y at h
  induction h with
  | nil => cases hy
  | @net m bs loud x k v m' i1 i2 i3 ih =>
    obtain ⟨ml', k', v', j1, j2, j3⟩ := ih (hf.net g bs loud i2) hy
    have := dist_net (s := .taking b) (c := c) (t := M.t) (ml := m) bs loud i1
    exact ⟨ml', k', v', j1, j2, by omega⟩
  | say i1 i2 i3 i4 ih => exact absurd rfl ((hf.says i1 i3).2 b)
  | @give m z' m1 x' k v m' i1 i2 ih =>
    simp only [List.cons.injEq] at hy
    obtain ⟨rfl, rfl⟩ := hy
    obtain ⟨j1, j2, j3⟩ := hf.gets (k := 0) i1
    exact ⟨m1, k, v, i2, j2, by omega⟩

/-- Bytes of a block. -/
theorem Path.bites {b l : List Byte} (g : M.Good c) (hl : l ≠ []) (hb : b.length + l.length ≤ c.rd) (hf : Fit M cap (.taking b) c ml)
    (h : Path M.t cap meaning ml (l ++ x) k v m) :
    ∃ ml' k' v', Path M.t cap meaning ml' x k' v' m ∧ Fit M cap (Mach.gets c b l).spot (Mach.gets c b l).conf ml' ∧
      dist (Mach.gets c b l).spot (Mach.gets c b l).conf ml' + k' < dist (.taking b) c ml + k := by
  induction l generalizing b ml k v with
  | nil => exact absurd rfl hl
  | cons z l ih =>
    obtain ⟨ml1, k1, v1, j1, j2, j3⟩ := Path.bite (x := l ++ x) g hf h
    cases l with
    | nil => exact ⟨ml1, k1, v1, j1, j2, j3⟩
    | cons z' l =>
      simp only [List.length_cons] at hb
      have e : Mach.gets c b [z] = ⟨.taking (b ++ [z]), c, []⟩ := by
        unfold Mach.gets; rw [if_neg (by simp; omega)]
      rw [e] at j2 j3
      obtain ⟨ml2, k2, v2, i1, i2, i3⟩ := ih (b := b ++ [z]) (by simp) (by simp; omega) j2 j1
      have e2 : Mach.gets c (b ++ [z]) (z' :: l) = Mach.gets c b (z :: z' :: l) := by
        unfold Mach.gets; rw [List.append_assoc]; rfl
      rw [e2] at i2 i3
      exact ⟨ml2, k2, v2, i1, i2, by dsimp only at j3; omega⟩

/-- Nothing more is on its way. -/
theorem Path.calm (g : M.Good c) (hf : Fit M cap s c ml) (h : Path M.t cap meaning ml [] k v m) :
    Fit M cap s c m ∧ ((v = false ∧ m = ml) ∨ dist s c m < dist s c ml + k) := by
  generalize hx : ([] : List Byte) = x at h
  induction h with
  | nil => exact ⟨hf, .inl ⟨rfl, rfl⟩⟩
  | @net m bs loud x k v m' i1 i2 i3 ih =>
    obtain ⟨j1, j2⟩ := ih (hf.net g bs loud i2) hx
    refine ⟨j1, .inr ?_⟩
    have := dist_net (s := s) (c := c) (t := M.t) (ml := m) bs loud i1
    rcases j2 with ⟨-, rfl⟩ | j2 <;> omega
  | say i1 i2 i3 i4 ih => exact absurd (List.append_eq_nil_iff.mp hx.symm).1 i2
  | give i1 i2 ih => cases hx

/-- The driver asks for fewer bytes. -/
theorem Fit.askAny (g : M.Good c) (h : Fit M cap .ask c m) {n : Nat} (h0 : 0 < n) (hn : n ≤ M.want c) :
    Fit M cap (.asked n) c (m.hears M.t [M.t.ask n]) ∧ dist (.asked n) c (m.hears M.t [M.t.ask n]) < dist .ask c m := by
  obtain ⟨meet, out, came, hcap, rcv, rd, fresh⟩ := h
  obtain ⟨ph, inbox, outbox, cm, news⟩ := m
  cases ph <;> simp only [Meet] at meet
  have hs := g.ask ⟨.idle, inbox, outbox, cm, news⟩ n rfl
  simp only [Modem.hears, List.foldl_cons, List.foldl_nil, hs]
  unfold Mach.want at hn
  refine ⟨⟨⟨rfl, h0, by omega, by omega, by omega⟩, out, came, hcap, rcv, rd, ?_⟩, ?_⟩
  · unfold Fresh at fresh ⊢
    split
    · exact ⟨by simp [Spot.new], by simp [Spot.blind]⟩
    · rename_i hp
      simp only [hp] at fresh
      exact ⟨fresh.1, by simp [Spot.new]⟩
  · simp only [dist, Spot.weight]; omega

section
variable {S R X : Type} {sc : Scene} {step : Dev S R X → Op → Dev S R X} {In : Spot → Conf → List (List Byte) → Dev S R X → Prop}
  {T : List (List Byte)} {d : Dev S R X} {w : Cable (Dev S R X)}

/-- Data is asked for after a text of the modem. -/
inductive AsksNext (M : Mach) (c : Conf) (m : Modem) : Spot → Act → Conf → Prop
  | noise {l} : AsksNext M c m .ask (.noise l) (c.mid [])
  | tell : AsksNext M c m .ask .tell (M.told (c.mid []) m.inbox.length)
  | done : AsksNext M c m .counted .speak (c.mid [])

/-- `run()` when the bytes `r`, which complete a text of the modem, and more have arrived. -/
inductive Heard (M : Mach) (sc : Scene) (step : Dev S R X → Op → Dev S R X) (In : Spot → Conf → List (List Byte) → Dev S R X → Prop)
    (s : Spot) (c : Conf) (T : List (List Byte)) (d : Dev S R X) (m : Modem) (a : Act) (r y : List Byte) : Prop
  | plain : (∀ n, s = .asked n → a ≠ .speak) → step ((hearing d sc.tx r).more y) (.run true) = (exec step d (hear sc.tx r 0)).more y → Heard M sc step In s c T d m a r y
  | ask {c1 e1} : AsksNext M c m s a c1 → step ((hearing d sc.tx r).more y) (.run true) = e1.more y →
      (In .ask c1 T e1 ∨ ∃ n, 0 < n ∧ n ≤ M.want c1 ∧ In (.asked n) c1 (T ++ [M.t.ask n]) e1) → Heard M sc step In s c T d m a r y
  | header {n} : s = .asked n → a = .speak →
      step ((hearing d sc.tx r).more y) (.run true) = step ((hearing (exec step d (hear sc.tx r 0)) sc.tx []).more y) (.run true) →
      Heard M sc step In s c T d m a r y

/-- Then the driver is about to ask. -/
theorem AsksNext.fit {a : Act} {c1 : Conf} {l : List Byte} (ha : AsksNext M c m s a c1) (g : M.Good c) (hf : Fit M cap s c m) (hs : m.say M.t a = some (l, m1)) :
    M.Good c1 ∧ Fit M cap .ask c1 m1 ∧ c1.part = [] ∧ c1.rx = c.rx ∧
      ((s = .ask ∧ c1 = c.mid [] ∧ m1 = m ∧ a.useful = false) ∨ dist .ask c1 m1 < dist s c m) := by
  cases ha with
  | noise =>
    have e := say_quiet hs rfl
    subst e
    exact ⟨g.mid [], hf.mid [], rfl, rfl, .inl ⟨rfl, rfl, rfl, rfl⟩⟩
  | tell =>
    simp only [Modem.say] at hs
    split at hs
    · rename_i hb
      simp only [Option.some.injEq, Prod.mk.injEq] at hs
      obtain ⟨-, rfl⟩ := hs
      obtain ⟨h1, h2⟩ := (hf.mid []).told hb.2 hb.1
      exact ⟨⟨g.always, g.query, g.ask, g.send, g.rx, g.tx, g.most, g.rcap, g.announce, g.confirm, g.count, g.header⟩, h1, rfl, rfl, .inr h2⟩
    · cases hs
  | done =>
    have hs : m.speak M.t = some (l, m1) := hs
    refine ⟨g.mid [], ?_⟩
    obtain ⟨meet, out, came, hcap, rcv, rd, fresh⟩ := hf
    obtain ⟨ph, inbox, outbox, cm, news⟩ := m
    cases ph <;> simp only [Meet] at meet
    simp only [Modem.speak, Option.some.injEq, Prod.mk.injEq] at hs
    obtain ⟨rfl, rfl⟩ := hs
    exact ⟨⟨trivial, out, came, hcap, rcv, rd, fresh⟩, rfl, rfl, .inr (by simp only [dist, Spot.weight]; omega)⟩

/-- A driver that follows the machine and can cope with bytes that arrive early. -/
structure Eager (M : Mach) (sc : Scene) (step : Dev S R X → Op → Dev S R X) (In : Spot → Conf → List (List Byte) → Dev S R X → Prop) : Prop where
  rx : ∀ {s c T d}, In s c T d → Ser.Still d.ser s.part c.rx
  irq : ∀ d hs, step d (.irq hs) = { d with ser := d.ser.transfers hs }
  write : ∀ d y bs, step (d.more y) (.write bs) = (step d (.write bs)).more y
  read : ∀ d y k, step (d.more y) (.read k) = (step d (.read k)).more y
  drain : ∀ {s c T d}, In s c T d → In s c T (step d (.irq (List.replicate sc.tx ⟨none, true⟩)))
  line : ∀ {s c T d m a r m' y}, In s c T d → Fit M sc.cap s c m → Fair sc.meaning a → m.say M.t a = some (c.part ++ r, m') → r ≠ [] →
    y ≠ [] → r.length + y.length ≤ c.rx → Heard M sc step In s c T d m a r y
  block : ∀ {c T d b l y ph}, In (.taking b) c T d → Meet M (.taking b) c ph → b.length + l.length = c.rd → c.rd + y.length ≤ c.rx →
    step ((hearing d sc.tx l).more y) (.run true) = (exec step d (hear sc.tx l 0)).more y

/-- The driver after emptying the transmit buffer. -/
theorem Eager.drained (e : Eager M sc step In) (h : In s c T d) (r y : List Byte) (hl : s.part.length + (r ++ y).length ≤ c.rx) :
    step (d.more (r ++ y)) (.irq (List.replicate sc.tx ⟨none, true⟩)) = (hearing d sc.tx r).more y := by
  have h1 := e.rx (e.drain h)
  rw [e.irq] at h1 ⊢
  rw [List.length_append] at hl
  have h2 := (h1.arrive r (by omega)).1
  have e1 : hearing d sc.tx r = ({ d with ser := d.ser.transfers (List.replicate sc.tx ⟨none, true⟩) } : Dev S R X).more r := by
    unfold hearing Dev.more
    dsimp only at h2 ⊢
    rw [← h2]
  rw [e1, ← more_append]
  unfold Dev.more
  dsimp only
  rw [Ser.more_drain]

theorem Eager.hear0 (e : Eager M sc step In) (d : Dev S R X) (r : List Byte) :
    exec step d (hear sc.tx r 0) = step (hearing d sc.tx r) (.run true) := exec_hear e.irq d r 0

/-- The driver and what is on its way. -/
structure Holds (M : Mach) (sc : Scene) (In : Spot → Conf → List (List Byte) → Dev S R X → Prop) (drv : Dev S R X) (air : List Byte) (m : Modem)
    (s : Spot) (c : Conf) (T : List (List Byte)) (d : Dev S R X) (y : List Byte) (ml : Modem) (k : Nat) (v : Bool) : Prop where
  drv : drv = d.more y
  state : In s c T d
  fit : Fit M sc.cap s c ml
  room : s.part.length + y.length ≤ c.rx
  air : Flight M.t sc.cap sc.meaning c ml (y ++ air) k v m

/-- `run()` has brought the driver nearer to the end, or something else holds. -/
def Down (M : Mach) (sc : Scene) (In : Spot → Conf → List (List Byte) → Dev S R X → Prop) (drv : Dev S R X) (air : List Byte) (m : Modem)
    (T : List (List Byte)) (N L : Nat) (P : Spot → Conf → Modem → Nat → Bool → List Byte → Prop) : Prop :=
  ∃ U s' c' d' y' ml' k' v', Holds M sc In drv air (m.hears M.t U) s' c' (T ++ U) d' y' ml' k' v' ∧
    ((∀ b, s' = .taking b → y' = []) ∧ y'.length ≤ L) ∧
    (dist s' c' ml' + k' < N ∨ P s' c' ml' k' v' y')

/-- `run()` has changed nothing. -/
def Stays (s : Spot) (c : Conf) (ml : Modem) (k : Nat) (v : Bool) (s' : Spot) (c' : Conf) (ml' : Modem) (k' : Nat) (v' : Bool)
    (y' : List Byte) : Prop :=
  s' = s ∧ c'.mid [] = c.mid [] ∧ ml' = ml ∧ k' = k ∧ (v = true → v' = true) ∧ (y' = [] → ¬ Mach.Acts s c)

variable {drv : Dev S R X} {air : List Byte}

/-- Bytes of a block have arrived. -/
theorem Holds.block (f : Follows M sc step In) (e : Eager M sc step In) {b : List Byte}
    (h : Holds M sc In drv air m (.taking b) c T d y ml k v) (hy : y ≠ []) :
    Down M sc In (exec step drv [.irq (List.replicate sc.tx ⟨none, true⟩), .run true]) air m T (dist (.taking b) c ml + k) (y.length - 1)
      (fun _ _ _ _ _ _ => False) := by
  obtain ⟨rfl, h1, h2, h3, h4⟩ := h
  have g := f.good h1
  have hp : Path M.t sc.cap sc.meaning ml (y ++ air) k v m ∧ c.part = [] := by
    generalize hz : y ++ air = z at h4
    cases h4 with
    | between i1 i2 => exact ⟨i2, i1⟩
    | within i1 i2 i3 i4 => exact absurd rfl ((h2.says i1 i2).2 b)
  have hb : b.length < c.rd ∧ c.rd ≤ c.rx := by
    have hm := h2.meet
    revert hm
    cases ml.phase <;> simp only [Meet] <;> first | exact False.elim | skip
    rintro ⟨x1, x2, -, x3⟩
    have := List.length_pos_iff.mpr x1
    exact ⟨by omega, x3⟩
  have hyl := List.length_pos_iff.mpr hy
  have hs := List.take_append_drop (c.rd - b.length) y
  generalize hl : y.take (c.rd - b.length) = l at hs
  generalize hy2 : y.drop (c.rd - b.length) = y2 at hs
  have hll : l.length = min (c.rd - b.length) y.length := by rw [← hl, List.length_take]
  have hl2 : y2.length = y.length - (c.rd - b.length) := by rw [← hy2, List.length_drop]
  have hl0 : l ≠ [] := List.length_pos_iff.mp (by omega)
  obtain ⟨ml', k', v', p1, p2, p3⟩ := Path.bites (l := l) (x := y2 ++ air) g hl0 (by omega) h2 (by rw [← List.append_assoc, hs]; exact hp.1)
  have h3 : b.length + y.length ≤ c.rx := h3
  have he : exec step (d.more y) [.irq (List.replicate sc.tx ⟨none, true⟩), .run true] = (exec step d (hear sc.tx l 0)).more y2 := by
    show step (step (d.more y) _) _ = _
    rw [← hs, e.drained h1 l y2 (by rw [hs]; exact h3)]
    by_cases h0 : y2 = []
    · rw [h0, more_nil, more_nil, e.hear0]
    · have := List.length_pos_iff.mpr h0
      exact e.block h1 h2.meet (by omega) (by omega)
  refine ⟨[], _, _, _, y2, ml', k', v', ⟨he, ?_, p2, ?_, ?_⟩, ?_, .inl p3⟩
  · rw [List.append_nil]
    exact f.gets h1 h2.meet (by omega)
  · unfold Mach.gets
    split
    · show 0 + y2.length ≤ c.rx; omega
    · show (b ++ l).length + y2.length ≤ c.rx
      rw [List.length_append]; omega
  · refine .between ?_ p1
    unfold Mach.gets
    split <;> exact hp.2
  · refine ⟨?_, by omega⟩
    intro b'
    unfold Mach.gets
    split
    · intro x; cases x
    · rename_i x
      intro _
      rw [List.length_append] at x
      exact List.length_eq_zero_iff.mp (by omega)

theorem Down.mono {N N' L L' : Nat} {P P' : Spot → Conf → Modem → Nat → Bool → List Byte → Prop} (h : Down M sc In drv air m T N L P)
    (hn : N ≤ N') (hl : L ≤ L') (hp : ∀ s c ml k v y, P s c ml k v y → P' s c ml k v y ∨ dist s c ml + k < N') :
    Down M sc In drv air m T N' L' P' := by
  obtain ⟨U, s', c', d', y', ml', k', v', h1, h2, h3⟩ := h
  refine ⟨U, s', c', d', y', ml', k', v', h1, ⟨h2.1, Nat.le_trans h2.2 hl⟩, ?_⟩
  rcases h3 with h3 | h3
  · exact .inl (by omega)
  · rcases hp _ _ _ _ _ _ h3 with x | x
    · exact .inr x
    · exact .inl x

/-- A text of the modem was read, and the bytes `y` have arrived after it. -/
theorem heard_text (f : Follows M sc step In) (h1 : In s c T d) (hf : Fit M sc.cap s c ml) {a : Act} (ha : Fair sc.meaning a) {r : List Byte}
    (hr : r ≠ []) (hs : ml.say M.t a = some (c.part ++ r, m1)) (hp : Path M.t sc.cap sc.meaning m1 (y ++ air) k v m) (hy : y.length ≤ c.rx)
    (hz : ∀ n, s = .asked n → a = .speak → y = []) (he : drv = (exec step d (hear sc.tx r 0)).more y) :
    Down M sc In drv air m T (dist s c ml + k) y.length (Stays s c ml k (v || a.useful)) := by
  obtain ⟨o, o1, o2, o3, o4, -, o5, o6, o7⟩ := completes f h1 hf ha hr hs
  refine ⟨o.says, o.spot, o.conf, _, y, m1.hears M.t o.says, k, v, ⟨he, o1, o2, ?_, .between o3 (hp.hears o6)⟩, ?_, ?_⟩
  · rw [o5]
    have : o.spot.part = [] := by
      cases e : o.spot with
      | taking b => exact (o7 b e).1
      | _ => rfl
    rw [this]; simpa using hy
  · refine ⟨fun b hb => ?_, Nat.le_refl _⟩
    obtain ⟨-, i1, n, i2⟩ := o7 b hb
    exact hz n i2 i1
  · rcases o4 with o4 | ⟨i1, i2, i3, i4, i5⟩
    · exact .inl (by omega)
    · refine .inr ⟨i2, by rw [i3], i4, rfl, fun x => ?_, fun _ => i5⟩
      have : a.useful = false := by
        cases a <;> first | rfl | exact absurd trivial i1
      rw [this, Bool.or_false] at x
      exact x

/-- `run()` when the bytes of a text and more have arrived. -/
theorem heard_line (f : Follows M sc step In) (e : Eager M sc step In) (h1 : In s c T d) (hf : Fit M sc.cap s c ml) {a : Act}
    (ha : Fair sc.meaning a) {r : List Byte} (hr : r ≠ []) (hs : ml.say M.t a = some (c.part ++ r, m1))
    (hp : Path M.t sc.cap sc.meaning m1 (y ++ air) k v m) (hy : r.length + y.length ≤ c.rx) (hy0 : y ≠ [])
    (he : drv = step ((hearing d sc.tx r).more y) (.run true)) :
    Down M sc In drv air m T (dist s c ml + k) y.length (Stays s c ml k (v || a.useful)) := by
  rcases e.line h1 hf ha hs hr hy0 hy with ⟨hh, x⟩ | ⟨x1, x2, x3⟩ | ⟨x1, x2, x3⟩
  · exact heard_text f h1 hf ha hr hs hp (by omega) (fun n i1 i2 => absurd i2 (hh n i1)) (he.trans x)
  · obtain ⟨q1, q2, q3, q4, q5⟩ := x1.fit (f.good h1) hf hs
    rcases x3 with x3 | ⟨n, n0, n1, x3⟩
    · refine ⟨[], .ask, _, _, y, m1, k, v, ⟨he.trans x2, by rw [List.append_nil]; exact x3, q2, by show 0 + y.length ≤ _; omega, .between q3 hp⟩,
        ⟨fun b x => (by cases x), Nat.le_refl _⟩, ?_⟩
      rcases q5 with ⟨rfl, rfl, rfl, i3⟩ | q5
      · exact .inr ⟨rfl, rfl, rfl, rfl, fun x => by simpa [i3] using x, fun x => absurd x hy0⟩
      · exact .inl (by omega)
    · obtain ⟨j1, j2⟩ := q2.askAny q1 n0 n1
      have hi : m1.phase = .idle := by
        have := q2.meet; revert this; cases m1.phase <;> simp [Meet]
      refine ⟨[M.t.ask n], .asked n, _, _, y, _, k, v, ⟨he.trans x2, x3, j1, by show 0 + y.length ≤ _; omega,
        .between q3 (hp.hears (.inr ⟨_, rfl, .inl hi⟩))⟩, ⟨fun b x => (by cases x), Nat.le_refl _⟩, .inl ?_⟩
      rcases q5 with ⟨rfl, rfl, rfl, -⟩ | q5
      · rw [dist_mid (s := .ask)] at j2; omega
      · omega
  · subst x1 x2
    have hs : ml.speak M.t = some (c.part ++ r, m1) := hs
    have hd : c.rd = 0 := hf.rd rfl (by
      have := hf.meet; revert this; cases ml.phase <;> simp [Meet, Phase.rest])
    obtain ⟨i1, i2, i3, i4⟩ := (hf.mid []).header ((f.good h1).mid []) hs
    have i5 := f.header h1 hf.meet hd i2 hf.rcv hf.cap hr i1.symm
    have hh := Holds.block (m := m) (air := air) (y := y) (k := k) (v := v) f e ⟨rfl, i5, i3, by show 0 + y.length ≤ c.rx; omega, .between rfl hp⟩ hy0
    have he' : exec step ((exec step d (hear sc.tx r 0)).more y) [.irq (List.replicate sc.tx ⟨none, true⟩), .run true] = drv := by
      rw [he, x3]
      show step (step _ _) _ = _
      have := e.drained i5 [] y (by show 0 + y.length ≤ c.rx; omega)
      rw [List.nil_append] at this
      rw [this]
    rw [he'] at hh
    exact hh.mono (Nat.le_of_lt (Nat.add_lt_add_right i4 k)) (Nat.sub_le ..) (fun _ _ _ _ _ _ x => x.elim)

/-- `run()`, no matter what has arrived. -/
theorem Holds.run (f : Follows M sc step In) (e : Eager M sc step In) (h : Holds M sc In drv air m s c T d y ml k v) :
    Down M sc In (exec step drv [.irq (List.replicate sc.tx ⟨none, true⟩), .run true]) air m T (dist s c ml + k) (y.length - 1)
      (Stays s c ml k v) := by
  by_cases hy : y = []
  · obtain ⟨rfl, h1, h2, h3, h4⟩ := h
    subst hy
    have h5 := e.drain h1
    have h6 := f.run h5 h2.meet
    obtain ⟨i1, i2⟩ := h2.run (f.good h1)
    refine ⟨(M.run s c).says, _, _, _, [], _, k, v, ⟨?_, h6, i1, ?_, h4.hears M.run_part h2.listens⟩, ⟨fun _ _ => rfl, Nat.zero_le _⟩, ?_⟩
    · rw [more_nil, more_nil]; rfl
    · rw [M.run_rx]
      have : (M.run s c).spot.part.length ≤ s.part.length := by
        cases e' : (M.run s c).spot with
        | taking b => rw [M.run_takes e']; exact Nat.le_refl _
        | _ => exact Nat.zero_le _
      simp only [List.length_nil] at h3 ⊢; omega
    · rcases i2 with i2 | ⟨i2, i3⟩
      · exact .inl (by omega)
      · rw [i2]
        exact .inr ⟨rfl, rfl, rfl, rfl, id, fun _ => i3⟩
  by_cases hb : ∃ b, s = .taking b
  · obtain ⟨b, rfl⟩ := hb
    exact (h.block f e hy).mono (Nat.le_refl _) (Nat.le_refl _) (fun _ _ _ _ _ _ x => x.elim)
  have hb : ∀ b, s ≠ .taking b := fun b x => hb ⟨b, x⟩
  obtain ⟨rfl, h1, h2, h3, h4⟩ := h
  obtain ⟨ml', k', a, r, m1, x, v0, j1, j2, j3, j4, j5, j6, j7⟩ := h4.head (f.good h1) hb h2 (by simp [hy])
  have hp : s.part = [] := by
    cases s with
    | taking b => exact absurd rfl (hb b)
    | _ => rfl
  rw [hp, List.length_nil, Nat.zero_add] at h3
  suffices hd : Down M sc In (exec step (d.more y) [.irq (List.replicate sc.tx ⟨none, true⟩), .run true]) air m T (dist s c ml' + k') (y.length - 1)
      (Stays s c ml' k' (v0 || a.useful)) by
    rcases j7 with ⟨rfl, rfl, rfl⟩ | j7
    · exact hd
    · refine hd.mono (Nat.le_of_lt j7) (Nat.le_refl _) ?_
      rintro _ _ _ _ _ _ ⟨rfl, q1, rfl, rfl, -⟩
      rw [dist_same q1]
      exact .inr j7
  rcases Nat.lt_or_ge y.length r.length with hl | hl
  · -- part of the text
    have e1 : r = y ++ r.drop y.length := by
      have := congrArg (List.take y.length) j5
      rw [List.take_left, List.take_append_of_le_length (by omega)] at this
      conv => lhs; rw [← List.take_append_drop y.length r, ← this]
    have e2 : air = r.drop y.length ++ x := by
      have := congrArg (List.drop y.length) j5
      rw [List.drop_left, List.drop_append_of_le_length (by omega)] at this
      exact this
    have e3 : r.drop y.length ≠ [] := List.length_pos_iff.mp (by rw [List.length_drop]; omega)
    generalize hw : r.drop y.length = w at e1 e2 e3
    subst e1
    rw [← List.append_assoc] at j3
    have i0 := f.more h1 j1 j2 j3 e3
    have g := (f.good h1).mid (c.part ++ y)
    obtain ⟨i1, i2⟩ := (j1.mid (c.part ++ y)).run g
    refine ⟨(M.run s (c.mid (c.part ++ y))).says, _, _, _, [], _, k', v0 || a.useful, ⟨?_, i0, i1, ?_, ?_⟩, ⟨fun _ _ => rfl, Nat.zero_le _⟩, ?_⟩
    · rw [more_nil, e.hear0]
      show step (step _ _) _ = _
      have := e.drained h1 y [] (by rw [hp]; simpa using h3)
      rw [List.append_nil, more_nil] at this
      rw [this]
    · rw [M.run_rx]
      have : (M.run s (c.mid (c.part ++ y))).spot.part = [] := by
        cases e' : (M.run s (c.mid (c.part ++ y))).spot with
        | taking b => exact absurd (M.run_takes e') (hb b)
        | _ => rfl
      rw [this]; exact Nat.zero_le _
    · rw [e2]
      have : Flight M.t sc.cap sc.meaning (c.mid (c.part ++ y)) ml' (w ++ x) k' (v0 || a.useful) m := .within j2 j3 e3 j6
      exact this.hears M.run_part (j1.mid (c.part ++ y)).listens
    · rcases i2 with i2 | ⟨i2, i3⟩
      · exact .inl (Nat.add_lt_add_right i2 k')
      · rw [i2]
        exact .inr ⟨rfl, rfl, rfl, rfl, id, fun _ z => i3 (by cases s <;> exact z)⟩
  · have e1 : y = r ++ y.drop r.length := by
      have := congrArg (List.take r.length) j5
      rw [List.take_left, List.take_append_of_le_length (by omega)] at this
      conv => lhs; rw [← List.take_append_drop r.length y, this]
    have e2 : x = y.drop r.length ++ air := by
      have := congrArg (List.drop r.length) j5
      rw [List.drop_left, List.drop_append_of_le_length (by omega)] at this
      exact this.symm
    generalize y.drop r.length = y2 at e1 e2
    subst e1 e2
    have e3 : exec step (d.more (r ++ y2)) [.irq (List.replicate sc.tx ⟨none, true⟩), .run true] =
        step ((hearing d sc.tx r).more y2) (.run true) := by
      show step (step _ _) _ = _
      rw [e.drained h1 r y2 (by rw [hp]; simpa using h3)]
    rw [List.length_append] at h3
    by_cases h0 : y2 = []
    · subst h0
      refine (heard_text f h1 j1 j2 j4 j3 j6 (Nat.zero_le _) (fun _ _ _ => rfl) ?_).mono (Nat.le_refl _) (Nat.zero_le _) fun _ _ _ _ _ _ x => .inl x
      rw [e3, more_nil, more_nil, e.hear0]
    · refine (heard_line f e h1 j1 j2 j4 j3 j6 h3 h0 e3).mono (Nat.le_refl _) ?_ fun _ _ _ _ _ _ x => .inl x
      have := List.length_pos_iff.mpr j4
      rw [List.length_append]; omega

theorem cable_go (f : Follows M sc step In) {s' c' d' U} {ops : List Op} (h : In s c T d) (hd : w.drv = d.more y)
    (h' : In s' c' (T ++ U) d') (hd' : exec step w.drv ops = d'.more z) :
    Cable.act.go sc step w ops = ⟨exec step w.drv ops, w.modem.hears M.t U, w.air⟩ := by
  unfold Cable.act.go
  dsimp only
  have e1 : w.drv.trace = d.trace := by rw [hd]; rfl
  have e2 : (exec step w.drv ops).trace = d'.trace := by rw [hd']; rfl
  rw [e1, e2, (f.seen h).utter, (f.seen h').utter, List.drop_left, f.tongue]
  rfl

/-- Driver and modem after an act. -/
def Swayed (M : Mach) (sc : Scene) (In : Spot → Conf → List (List Byte) → Dev S R X → Prop) (s : Spot) (c : Conf) (ml : Modem) (k : Nat) (v : Bool)
    (a : Act) (w : Cable (Dev S R X)) : Prop :=
  ∃ s' c' T' d' y' ml' k' v', Holds M sc In w.drv w.air w.modem s' c' T' d' y' ml' k' v' ∧
    (a.still = true → dist s' c' ml' + k' < dist s c ml + k ∨
      (s' = s ∧ c'.mid [] = c.mid [] ∧ ml' = ml ∧ k' = k ∧ (v = true → v' = true) ∧ (a ≠ .run → Helps s c ml a → v' = true) ∧
        (a = .run → y' = [] → ¬ Helps s c ml a))) ∧ (a = .run → ∀ b, s' = .taking b → y' = [])

theorem Holds.says (h : Holds M sc In w.drv w.air w.modem s c T d y ml k v) {l : List Byte} {m' : Modem}
    (hp : Path M.t sc.cap sc.meaning w.modem l 0 v' m') {a : Act} (ha : a ≠ .run) (hh : v = true ∨ v' = true ∨ ¬ Helps s c ml a) :
    Swayed M sc In s c ml k v a { w with modem := m', air := w.air ++ l } := by
  refine ⟨s, c, T, d, y, ml, k, v || v', ⟨h.drv, h.state, h.fit, h.room, ?_⟩, fun _ => .inr ⟨rfl, rfl, rfl, rfl, fun x => by simp [x], ?_, fun x => absurd x ha⟩,
    fun x => absurd x ha⟩
  · have := h.air.append hp
    rw [List.append_assoc] at this
    exact this
  · intro _ x
    rcases hh with z | z | z
    · simp [z]
    · simp [z]
    · exact absurd x z

theorem Holds.idle (h : Holds M sc In w.drv w.air w.modem s c T d y ml k v) {a : Act} (ha : a ≠ .run) (hh : v = true ∨ ¬ Helps s c ml a) :
    Swayed M sc In s c ml k v a w := by
  refine ⟨s, c, T, d, y, ml, k, v, h, fun _ => .inr ⟨rfl, rfl, rfl, rfl, id, fun _ x => ?_, fun x => absurd x ha⟩, fun x => absurd x ha⟩
  rcases hh with z | z
  · exact z
  · exact absurd x z

/-- The modem says something, if it can. -/
theorem Holds.begin (f : Follows M sc step In) (h : Holds M sc In w.drv w.air w.modem s c T d y ml k v) {a : Act} (ha : Fair sc.meaning a)
    (hr : a ≠ .run) (hh : Helps s c w.modem a → a.useful = true ∧ (w.modem.say M.t a).isSome = true) :
    Swayed M sc In s c ml k v a (Cable.act.says w (w.modem.say sc.tongue a)) := by
  rw [f.tongue]
  cases hs : w.modem.say M.t a with
  | none =>
    refine h.idle hr ?_
    cases v with
    | true => exact .inl rfl
    | false =>
      rw [← h.air.quiet]
      refine .inr fun x => ?_
      have := (hh x).2
      rw [hs] at this
      cases this
  | some x =>
    obtain ⟨l, m'⟩ := x
    have hn := say_ne' (f.good h.state) (h.air.sane h.fit.sane) ha hs
    have hp := Path.one (cap := sc.cap) ha hn hs
    refine h.says hp hr ?_
    cases v with
    | true => exact .inl rfl
    | false =>
      rw [← h.air.quiet]
      by_cases x : Helps s c w.modem a
      · exact .inr (.inl (hh x).1)
      · exact .inr (.inr x)

/-- Free bytes in the receive buffer. -/
theorem Holds.free (e : Eager M sc step In) (h : Holds M sc In w.drv w.air w.modem s c T d y ml k v) :
    w.room = c.rx - (s.part.length + y.length) ∧ w.drv.ser.bytesAvailable.2 = s.part.length + y.length := by
  have h2 := (e.rx h.state).arrive y h.room
  have := h2.2.bytesAvailable.1
  rw [List.length_append] at this
  unfold Cable.room
  rw [h.drv]
  refine ⟨?_, this⟩
  show (d.ser.more y).rx.ring.size - (d.ser.more y).bytesAvailable.2 = _
  rw [this, h2.2.rxs]

/-- Some bytes arrive. -/
theorem Holds.pass (e : Eager M sc step In) (h : Holds M sc In w.drv w.air w.modem s c T d y ml k v) (n : Nat) :
    Holds M sc In (w.act sc step (.pass n)).drv (w.act sc step (.pass n)).air (w.act sc step (.pass n)).modem s c T d
      (y ++ w.air.take (min (n + 1) w.room)) ml k v ∧ (w.act sc step (.pass n)).air = w.air.drop (min (n + 1) w.room) := by
  have h2 := (e.rx h.state).arrive y h.room
  have hroom := (h.free e).1
  refine ⟨?_, rfl⟩
  show Holds M sc In (exec step w.drv [lands (w.air.take (min (n + 1) w.room))]) (w.air.drop (min (n + 1) w.room)) w.modem s c T d _ ml k v
  generalize hj : min (n + 1) w.room = j
  have hl : (w.air.take j).length ≤ c.rx - (s.part.length + y.length) := by
    rw [List.length_take]; omega
  have hr := h.room
  refine ⟨?_, h.state, h.fit, by rw [List.length_append]; omega, ?_⟩
  · show step w.drv (.irq _) = _
    rw [e.irq, h.drv, more_append]
    have := (h2.2.arrive (w.air.take j) (by rw [List.length_append]; omega)).1
    show ({ d.more y with ser := (d.ser.more y).transfers _ } : Dev S R X) = _
    rw [this]; rfl
  · rw [List.append_assoc, List.take_append_drop]
    exact h.air

/-- Whatever happens, the driver and what is on its way fit. -/
theorem Holds.act (f : Follows M sc step In) (e : Eager M sc step In) (h : Holds M sc In w.drv w.air w.modem s c T d y ml k v)
    (a : Act) (ha : Fair sc.meaning a) : Swayed M sc In s c ml k v a (w.act sc step a) := by
  cases a with
  | run =>
    obtain ⟨U, s', c', d', y', ml', k', v', h1, h2, h3⟩ := h.run f e
    have eq : w.act sc step .run = ⟨_, _, _⟩ := cable_go f h.state h.drv h1.state h1.drv
    rw [eq]
    refine ⟨s', c', _, d', y', ml', k', v', h1, fun _ => h3.imp id ?_, fun _ => h2.1⟩
    rintro ⟨x1, x2, x3, x4, x5, x6⟩
    exact ⟨x1, x2, x3, x4, x5, fun x => absurd rfl x, fun _ => x6⟩
  | write bs =>
    obtain ⟨b, h'⟩ := f.write bs h.state
    have hd : exec step w.drv [.write bs] = (exec step d [.write bs]).more y := by
      rw [h.drv]; exact e.write d y bs
    have eq : w.act sc step (.write bs) = ⟨_, _, _⟩ := cable_go (U := []) f h.state h.drv (by rw [List.append_nil]; exact h') hd
    rw [eq]
    refine ⟨s, _, T, _, y, ml, k, v, ⟨hd, h', h.fit.write b, h.room, ?_⟩, (fun x => by cases x), (fun x => by cases x)⟩
    exact h.air.hears (us := []) rfl (.inl rfl)
  | read n =>
    have h' := f.read n h.state
    have hd : exec step w.drv [.read n] = (exec step d [.read n]).more y := by
      rw [h.drv]; exact e.read d y n
    have eq : w.act sc step (.read n) = ⟨_, _, _⟩ := cable_go (U := []) f h.state h.drv (by rw [List.append_nil]; exact h') hd
    rw [eq]
    obtain ⟨h1, h2⟩ := h.fit.read n
    refine ⟨s, _, T, _, y, ml, k, v, ⟨hd, h', h1, h.room, h.air.hears (us := []) rfl (.inl rfl)⟩, fun _ => ?_, (fun x => by cases x)⟩
    rcases h2 with x | ⟨x, z⟩
    · exact .inl (Nat.add_lt_add_right x k)
    · exact .inr ⟨rfl, by rw [x], rfl, rfl, id, fun _ q => absurd q z, fun x => by cases x⟩
  | noise l => exact h.begin f ha (fun x => by cases x) fun x => x.elim
  | tell =>
    refine h.begin f ha (fun x => by cases x) fun x => ⟨rfl, ?_⟩
    have x : w.modem.phase.busy = false ∧ w.modem.news = true := x
    simp only [Modem.say, if_pos x]; rfl
  | speak =>
    refine h.begin f ha (fun x => by cases x) fun x => ⟨rfl, ?_⟩
    revert x
    simp only [Modem.say]
    unfold Modem.speak Helps
    cases w.modem.phase <;> simp
  | give n =>
    show Swayed _ _ _ _ _ _ _ _ _ (Cable.act.says w (w.modem.give (n + 1)))
    by_cases hb : ∃ b, w.modem.phase = .data b
    · obtain ⟨b, hb⟩ := hb
      have hs := h.air.sane h.fit.sane
      unfold Sane at hs
      rw [hb] at hs
      obtain ⟨u, m', i1, i2, i3⟩ := Path.gives (t := M.t) (cap := sc.cap) (meaning := sc.meaning) n hb hs
      rw [i1]
      exact h.says i3 (fun x => by cases x) (.inr (.inl rfl))
    · have : w.modem.give (n + 1) = none := by
        unfold Modem.give
        cases hp : w.modem.phase <;> first | rfl | exact absurd ⟨_, hp⟩ hb
      rw [this]
      refine h.idle (fun x => by cases x) ?_
      cases v with
      | true => exact .inl rfl
      | false =>
        rw [← h.air.quiet]
        refine .inr fun x => hb ?_
        have x : w.modem.phase.busy = true := x
        revert x
        unfold Phase.busy
        cases w.modem.phase <;> simp
  | net bs loud =>
    show Swayed _ _ _ _ _ _ _ _ _ (if _ then _ else w)
    split
    · rename_i hc
      rw [f.tongue]
      by_cases hb : bs = []
      · subst hb
        have : w.modem.arrive M.t [] loud = w.modem := by
          obtain ⟨dr, ⟨ph, inbox, outbox, cm, news⟩, ai⟩ := w
          simp [Modem.arrive]
        rw [this]
        exact ⟨s, c, T, d, y, ml, k, v, h, (fun x => by cases x), (fun x => by cases x)⟩
      · have hp := Path.net (meaning := sc.meaning) (t := M.t) (loud := loud) hb hc .nil
        have := h.air.append hp
        rw [List.append_nil] at this
        exact ⟨s, c, T, d, y, ml, _, _, ⟨h.drv, h.state, h.fit, h.room, this⟩, (fun x => by cases x), (fun x => by cases x)⟩
    · exact ⟨s, c, T, d, y, ml, k, v, h, (fun x => by cases x), (fun x => by cases x)⟩
  | pass n =>
    exact ⟨s, c, T, d, _, ml, k, v, (h.pass e n).1, fun _ => .inr ⟨rfl, rfl, rfl, rfl, id, fun _ x => x.elim, fun x => by cases x⟩, fun x => by cases x⟩

/-- Nothing is on its way. -/
theorem Holds.start (h1 : In s c T drv) (h2 : Fit M sc.cap s c m) (h3 : c.part = []) : Holds M sc In drv [] m s c T drv [] m 0 false := by
  refine ⟨(more_nil _).symm, h1, h2, ?_, .between h3 .nil⟩
  have := h2.meet
  cases s <;> try exact Nat.zero_le _
  rename_i b
  revert this
  cases m.phase <;> simp only [Meet, false_implies]
  rintro ⟨-, x, -, z⟩
  show b.length + 0 ≤ _
  omega

/-- Driver and modem at both ends of a cable. -/
def Strung (M : Mach) (sc : Scene) (In : Spot → Conf → List (List Byte) → Dev S R X → Prop) (w : Cable (Dev S R X)) : Prop :=
  ∃ s c T d y ml k v, Holds M sc In w.drv w.air w.modem s c T d y ml k v

/-- Over any history, they stay in step. -/
theorem Strung.acts (f : Follows M sc step In) (e : Eager M sc step In) (h : Strung M sc In w) (as : List Act)
    (ha : ∀ a ∈ as, Fair sc.meaning a) : Strung M sc In (w.acts sc step as) := by
  induction as generalizing w with
  | nil => exact h
  | cons a as ih =>
    obtain ⟨s, c, T, d, y, ml, k, v, h⟩ := h
    obtain ⟨s', c', T', d', y', ml', k', v', h', -⟩ := h.act f e a (ha a (List.mem_cons_self ..))
    exact ih (w := w.act sc step a) ⟨s', c', T', d', y', ml', k', v', h'⟩ fun b hb => ha b (List.mem_cons_of_mem _ hb)

/-- Acts bring driver and modem nearer to the end. -/
theorem Holds.acts (f : Follows M sc step In) (e : Eager M sc step In) {us : List Act} (ha : ∀ a ∈ us, Fair sc.meaning a)
    (hs : ∀ a ∈ us, a.still = true) (h : Holds M sc In w.drv w.air w.modem s c T d y ml k v) :
    ∃ s' c' T' d' y' ml' k' v', Holds M sc In (w.acts sc step us).drv (w.acts sc step us).air (w.acts sc step us).modem s' c' T' d' y' ml' k' v' ∧
      (dist s' c' ml' + k' < dist s c ml + k ∨
        (s' = s ∧ c'.mid [] = c.mid [] ∧ ml' = ml ∧ k' = k ∧ (v = true → v' = true) ∧ ∀ a ∈ us, a ≠ .run → Helps s c ml a → v' = true)) := by
  induction us generalizing w s c T d y ml k v with
  | nil => exact ⟨s, c, T, d, y, ml, k, v, h, .inr ⟨rfl, rfl, rfl, rfl, id, fun _ x => by cases x⟩⟩
  | cons a us ih =>
    obtain ⟨s1, c1, T1, d1, y1, ml1, k1, v1, h1, h2, -⟩ := h.act f e a (ha a (List.mem_cons_self ..))
    obtain ⟨s2, c2, T2, d2, y2, ml2, k2, v2, h3, h4⟩ :=
      ih (w := w.act sc step a) (fun b hb => ha b (List.mem_cons_of_mem _ hb)) (fun b hb => hs b (List.mem_cons_of_mem _ hb)) h1
    refine ⟨s2, c2, T2, d2, y2, ml2, k2, v2, h3, ?_⟩
    rcases h2 (hs a (List.mem_cons_self ..)) with x | ⟨rfl, x1, rfl, rfl, x2, x3, -⟩
    · left
      rcases h4 with z | ⟨rfl, z1, rfl, rfl, -⟩
      · exact Nat.lt_trans z x
      · rw [dist_same z1]; exact x
    · rcases h4 with z | ⟨rfl, z1, rfl, rfl, z2, z3⟩
      · rw [dist_same x1] at z
        exact .inl z
      · refine .inr ⟨rfl, z1.trans x1, rfl, rfl, fun q => z2 (x2 q), fun b hb q1 q2 => ?_⟩
        rcases List.mem_cons.mp hb with rfl | hb
        · exact z2 (x3 q1 q2)
        · exact z3 b hb q1 (by rw [helps_same x1]; exact q2)

/-- After a round, the driver knows what the modem knows. -/
theorem Holds.round (f : Follows M sc step In) (e : Eager M sc step In) {as : List Act} (ha : ∀ a ∈ as, Fair sc.meaning a)
    (hr : w.Round sc step as) (h : Holds M sc In w.drv w.air w.modem s c T d y ml k v) :
    (w.acts sc step as).air = [] ∧ ∃ s' c' T', In s' c' T' (w.acts sc step as).drv ∧ Fit M sc.cap s' c' (w.acts sc step as).modem ∧ c'.part = [] ∧
      (dist s' c' (w.acts sc step as).modem < dist s c ml + k ∨ Over s' c' (w.acts sc step as).modem) := by
  obtain ⟨us, rfl⟩ := hr.run
  have hair := hr.drained.air
  have hemp := hr.drained.empty
  refine ⟨hair, ?_⟩
  have eq : w.acts sc step (us ++ [.run]) = (w.acts sc step us).act sc step .run := by
    unfold Cable.acts; rw [List.foldl_append]; rfl
  obtain ⟨s1, c1, T1, d1, y1, ml1, k1, v1, h1, h2⟩ := h.acts f e (us := us) (fun a x => ha a (by simp [x])) (fun a x => hr.still a (by simp [x]))
  obtain ⟨s2, c2, T2, d2, y2, ml2, k2, v2, h3, h4, h5⟩ := h1.act f e .run trivial
  rw [← eq] at h3
  generalize w.acts sc step (us ++ [.run]) = w' at h3 hair hemp ⊢
  have h4 := h4 rfl
  have h5 := h5 rfl
  have hy : y2 = [] := by
    have q1 := (e.rx h3.state).arrive y2 h3.room
    have q2 := q1.2.bytesAvailable.1
    have q3 := (f.seen h3.state).rd
    rw [h3.drv] at hemp
    rw [List.length_append] at q2
    have hemp : (d2.ser.more y2).bytesAvailable.2 = 0 ∨ (d2.ser.more y2).bytesAvailable.2 < d2.bytesToRead := hemp
    rw [q2, q3] at hemp
    rcases hemp with x | x
    · exact List.length_eq_zero_iff.mp (by omega)
    · have hb := h3.fit.block
      cases hs : s2 with
      | taking b => exact h5 b hs
      | _ =>
        exfalso
        rw [hs] at hb
        have hm := h3.fit.meet
        rw [hs] at hm
        revert hm hb
        cases ml2.phase <;> simp only [Meet, false_implies, implies_true, Phase.rest, Spot.part, List.length_nil] <;> intros <;> omega
  subst hy
  have hf := h3.air
  rw [hair, List.append_nil] at hf
  have hp : Path M.t sc.cap sc.meaning ml2 [] k2 v2 w'.modem ∧ c2.part = [] := by
    generalize hz : ([] : List Byte) = z at hf
    cases hf with
    | between i1 i2 => exact ⟨i2, i1.trans hz⟩
    | within i1 i2 i3 i4 => exact absurd (List.append_eq_nil_iff.mp hz.symm).1 i3
  obtain ⟨hf1, hf2⟩ := hp.1.calm (f.good h3.state) h3.fit
  refine ⟨s2, c2, T2, by rw [h3.drv, more_nil]; exact h3.state, hf1, hp.2, ?_⟩
  have hlt : dist s2 c2 ml2 + k2 < dist s c ml + k → dist s2 c2 w'.modem < dist s c ml + k := by
    intro x
    rcases hf2 with ⟨-, q⟩ | q
    · rw [q]; omega
    · omega
  rcases h4 with x | ⟨rfl, x1, rfl, rfl, x2, -, x3⟩
  · rcases h2 with z | ⟨rfl, z1, rfl, rfl, z2, -⟩
    · exact .inl (hlt (Nat.lt_trans x z))
    · rw [dist_same z1] at x
      exact .inl (hlt x)
  · rcases h2 with z | ⟨rfl, z1, rfl, rfl, z2, z3⟩
    · rw [← dist_same x1] at z
      exact .inl (hlt z)
    · rcases hf2 with ⟨rfl, q⟩ | q
      · right
        rw [q]
        refine over_mid (x1.trans z1) ?_
        obtain ⟨k', hk, hr1⟩ := hr.read
        obtain ⟨k'', hr2⟩ := hr.give
        have hn : ∀ a ∈ us ++ [Act.run], a ≠ .run → ¬ Helps s2 c ml2 a := by
          intro a hm hn hh
          rcases List.mem_append.mp hm with hm | hm
          · exact absurd (x2 (z3 a hm hn hh)) (by simp)
          · exact hn (by simpa using hm)
        refine over_of (f.good h.state) h.fit ?_ hk (hn _ hr1 (by simp)) (hn _ hr.tell (by simp)) (hn _ hr.speak (by simp)) (hn _ hr2 (by simp))
        have := x3 rfl rfl
        rw [helps_same z1] at this
        exact this
      · rw [dist_same (m := ml2) (x1.trans z1)] at q
        exact .inl q

/-- After enough rounds, all is done. -/
theorem Cable.Rounds.ends (f : Follows M sc step In) (e : Eager M sc step In) {rs : List (List Act)} (ha : ∀ as ∈ rs, ∀ a ∈ as, Fair sc.meaning a)
    (hr : Rounds sc step w rs) (h0 : w.air = []) (h1 : In s c T w.drv) (h2 : Fit M sc.cap s c w.modem) (h3 : c.part = [])
    (hn : Over s c w.modem ∨ dist s c w.modem < rs.length) :
    (w.acts sc step rs.flatten).air = [] ∧ ∃ s' c' T', In s' c' T' (w.acts sc step rs.flatten).drv ∧
      Fit M sc.cap s' c' (w.acts sc step rs.flatten).modem ∧ c'.part = [] ∧ Over s' c' (w.acts sc step rs.flatten).modem := by
  induction rs generalizing s c T w with
  | nil =>
    rcases hn with hn | hn
    · exact ⟨h0, s, c, T, h1, h2, h3, hn⟩
    · exact absurd hn (Nat.not_lt_zero _)
  | cons as rs ih =>
    cases hr with
    | cons r hr =>
    have eq : w.acts sc step (as :: rs).flatten = (w.acts sc step as).acts sc step rs.flatten := by
      unfold Cable.acts
      rw [List.flatten_cons, List.foldl_append]
    rw [eq]
    have hh := Holds.start h1 h2 h3
    rw [← h0] at hh
    obtain ⟨q0, s', c', T', q1, q2, q3, q4⟩ := hh.round f e (ha as (List.mem_cons_self ..)) r
    refine ih (fun b hb => ha b (List.mem_cons_of_mem _ hb)) hr q0 q1 q2 q3 ?_
    rcases q4 with x | x
    · rcases hn with hn | hn
      · exact (hn.stays q2 x).elim
      · right
        simp only [List.length_cons] at hn
        omega
    · exact .inl x

/-- Bytes arrive, and `run()` reads them: nothing is left. -/
theorem Strung.drains (f : Follows M sc step In) (e : Eager M sc step In) (h : Strung M sc In w) (ks : List Nat)
    (hk : w.air.length + w.drv.ser.bytesAvailable.2 ≤ ks.length) : (w.acts sc step (ks.flatMap fun k => [.pass k, .run])).Drained := by
  obtain ⟨s, c, T, d, y, ml, k, v, h⟩ := h
  replace hk : w.air.length + y.length ≤ ks.length := by
    rw [(h.free e).2] at hk; omega
  induction ks generalizing w s c T d y ml k v with
  | nil =>
    simp only [List.length_nil, Nat.le_zero, Nat.add_eq_zero_iff, List.length_eq_zero_iff] at hk
    refine ⟨hk.1, ?_⟩
    show w.drv.ser.bytesAvailable.2 = 0 ∨ w.drv.ser.bytesAvailable.2 < w.drv.bytesToRead
    have q : w.drv.bytesToRead = c.rd := by rw [h.drv]; exact (f.seen h.state).rd
    rw [(h.free e).2, hk.2, q]
    cases hs : s with
    | taking b =>
      right
      have hm := h.fit.meet
      rw [hs] at hm
      revert hm
      cases ml.phase <;> simp only [Meet] <;> first | exact False.elim | skip
      rintro ⟨x1, x2, -, -⟩
      have := List.length_pos_iff.mpr x1
      show b.length + 0 < c.rd
      omega
    | _ => exact .inl rfl
  | cons n ks ih =>
    obtain ⟨h1, h2⟩ := h.pass e n
    have hr := (h.free e).1
    generalize hw1 : w.act sc step (.pass n) = w1 at h1 h2
    obtain ⟨U, s', c', d', y', ml', k', v', h3, h4, -⟩ := h1.run f e
    have eq : w1.act sc step .run = ⟨_, _, _⟩ := cable_go f h1.state h1.drv h3.state h3.drv
    have eq2 : w.acts sc step ((n :: ks).flatMap fun k => [.pass k, .run]) = (w1.act sc step .run).acts sc step (ks.flatMap fun k => [.pass k, .run]) := by
      rw [← hw1]; rfl
    rw [eq2, eq]
    refine ih (w := ⟨_, _, _⟩) s' c' _ d' y' ml' k' v' h3 ?_
    have h5 := h4.2
    rw [List.length_append, List.length_take] at h5
    show w1.air.length + y'.length ≤ ks.length
    rw [h2, List.length_drop]
    simp only [List.length_cons] at hk
    have h6 : y = [] → 0 < w.room := by
      rintro rfl
      rw [hr]
      have g := (f.good h.state).rx
      have hm := h.fit.meet
      cases s with
      | taking b =>
        revert hm
        cases ml.phase <;> simp only [Meet] <;> first | exact False.elim | skip
        rintro ⟨x1, x2, -, x3⟩
        have := List.length_pos_iff.mpr x1
        show 0 < c.rx - (b.length + 0)
        omega
      | _ => show 0 < c.rx - (0 + 0); omega
    by_cases hy : y = []
    · have := h6 hy
      subst hy
      simp only [List.length_nil] at h5 hk
      omega
    · have := List.length_pos_iff.mpr hy
      omega

theorem Strung.sound (f : Follows M sc step In) (h : Strung M sc In w) : w.Sound := by
  obtain ⟨s, c, T, d, y, ml, k, v, h⟩ := h
  have q := f.seen h.state
  have hb := h.fit.block
  obtain ⟨a1, z, a2, a3, -⟩ := h.air.stock
  have e1 : accepted w.drv.trace = c.took := by rw [h.drv]; exact q.took
  have e2 : handed w.drv.trace = c.gave := by rw [h.drv]; exact q.gave
  have e3 : w.drv.wbuf.bytesAvailable = c.wq.length := by rw [h.drv]; exact q.wq
  have e4 : w.drv.rbuf.bytesAvailable = c.rq.length := by rw [h.drv]; exact q.rq
  have e5 : w.drv.bytesToRead = c.rd := by rw [h.drv]; exact q.rd
  refine ⟨?_, ?_, ?_, ?_, by rw [h.drv]; exact q.conn, by rw [h.drv]; exact q.whole⟩
  · rw [e1, a1]; exact ⟨_, h.fit.out⟩
  · rw [e1, e3, a1, ← h.fit.out, List.length_append]
  · rw [e2, a2, ← h.fit.came]; simp only [List.append_assoc]; exact List.prefix_append _ _
  · rw [e2, e4, e5, a2, ← h.fit.came]
    simp only [List.length_append]; omega

theorem Strung.settles (f : Follows M sc step In) (e : Eager M sc step In) (h : Strung M sc In w) (rs : List (List Act))
    (ha : ∀ as ∈ rs, ∀ a ∈ as, Fair sc.meaning a) (hr : Cable.Rounds sc step w rs) (hn : w.effort ≤ rs.length) :
    (w.acts sc step rs.flatten).air = [] ∧ ∃ s' c' T', In s' c' T' (w.acts sc step rs.flatten).drv ∧
      Fit M sc.cap s' c' (w.acts sc step rs.flatten).modem ∧ c'.part = [] ∧ Over s' c' (w.acts sc step rs.flatten).modem := by
  obtain ⟨s, c, T, d, y, ml, k, v, h⟩ := h
  have q := f.seen h.state
  have hb := h.fit.block
  obtain ⟨a1, z, a2, a3, a4⟩ := h.air.stock
  have hd : dist s c ml + k < rs.length := by
    have e2 : handed w.drv.trace = c.gave := by rw [h.drv]; exact q.gave
    have e3 : w.drv.wbuf.bytesAvailable = c.wq.length := by rw [h.drv]; exact q.wq
    unfold Cable.effort at hn
    rw [e2, e3, a2, ← h.fit.came] at hn
    simp only [List.length_append] at hn
    have : s.weight ml.phase ≤ 60 + 2 * c.rd := by
      cases s <;> simp only [Spot.weight, Spot.part] at hb ⊢ <;> omega
    unfold dist
    have : (if ml.news = true then 30 else 0) ≤ 30 := by split <;> omega
    have : (if c.data = true then 20 else 0) ≤ 20 := by split <;> omega
    omega
  cases hr with
  | nil => exact absurd hd (Nat.not_lt_zero _)
  | @cons _ as rs r hr =>
  have eq : w.acts sc step (as :: rs).flatten = (w.acts sc step as).acts sc step rs.flatten := by
    unfold Cable.acts
    rw [List.flatten_cons, List.foldl_append]
  obtain ⟨q0, s', c', T', q1, q2, q3, q4⟩ := h.round f e (ha as (List.mem_cons_self ..)) r
  rw [eq]
  exact Cable.Rounds.ends f e (fun b hb => ha b (List.mem_cons_of_mem _ hb)) hr q0 q1 q2 q3 (by
    rcases q4 with x | x
    · right; simp only [List.length_cons] at hd; omega
    · exact .inl x)

theorem Over.done (f : Follows M sc step In) (h1 : In s c T w.drv) (h2 : Fit M sc.cap s c w.modem) (h : Over s c w.modem) : w.Settled := by
  have := Over.settled (w := ⟨_, _, none⟩) f h1 h2 h
  exact ⟨this.out, this.came, this.connected⟩

/-- There is always a round. -/
theorem Strung.round (f : Follows M sc step In) (e : Eager M sc step In) (h : Strung M sc In w) :
    ∃ as, w.Round sc step as ∧ ∀ a ∈ as, Fair sc.meaning a := by
  have h1 := h.acts f e [.read 1, .tell, .speak, .give 0] (by simp [Fair])
  generalize hw : w.acts sc step [.read 1, .tell, .speak, .give 0] = w1 at h1
  have h2 := h1.drains f e (List.replicate (w1.air.length + w1.drv.ser.bytesAvailable.2 + 1) 0) (by rw [List.length_replicate]; omega)
  refine ⟨[.read 1, .tell, .speak, .give 0] ++ (List.replicate (w1.air.length + w1.drv.ser.bytesAvailable.2 + 1) 0).flatMap
    (fun k => [.pass k, .run]), ⟨?_, ⟨1, by decide, by simp⟩, by simp, by simp, ⟨0, by simp⟩, ?_, ?_⟩, ?_⟩
  · intro a ha
    simp only [List.mem_append, List.mem_flatMap, List.mem_cons, List.not_mem_nil, or_false] at ha
    rcases ha with (rfl | rfl | rfl | rfl) | ⟨_, -, rfl | rfl⟩ <;> rfl
  · refine ⟨[.read 1, .tell, .speak, .give 0] ++ (List.replicate (w1.air.length + w1.drv.ser.bytesAvailable.2) 0).flatMap
      (fun k => [.pass k, .run]) ++ [.pass 0], ?_⟩
    rw [List.replicate_succ', List.flatMap_append]
    simp
  · have : w.acts sc step ([.read 1, .tell, .speak, .give 0] ++ (List.replicate (w1.air.length + w1.drv.ser.bytesAvailable.2 + 1) 0).flatMap
        (fun k => [.pass k, .run])) = w1.acts sc step ((List.replicate (w1.air.length + w1.drv.ser.bytesAvailable.2 + 1) 0).flatMap
        (fun k => [.pass k, .run])) := by
      rw [← hw]; unfold Cable.acts; rw [List.foldl_append]
    rw [this]; exact h2
  · intro a ha
    simp only [List.mem_append, List.mem_flatMap, List.mem_cons, List.not_mem_nil, or_false] at ha
    rcases ha with (rfl | rfl | rfl | rfl) | ⟨_, -, rfl | rfl⟩ <;> trivial

/-- There are as many rounds as one likes. -/
theorem Strung.rounds (f : Follows M sc step In) (e : Eager M sc step In) (h : Strung M sc In w) (n : Nat) :
    ∃ rs, rs.length = n ∧ w.Rounds sc step rs ∧ ∀ as ∈ rs, ∀ a ∈ as, Fair sc.meaning a := by
  induction n generalizing w with
  | zero => exact ⟨[], rfl, .nil, by simp⟩
  | succ n ih =>
    obtain ⟨as, h1, h2⟩ := h.round f e
    obtain ⟨rs, i1, i2, i3⟩ := ih (h.acts f e as h2)
    refine ⟨as :: rs, by rw [List.length_cons, i1], .cons h1 i2, fun bs hb => ?_⟩
    rcases List.mem_cons.mp hb with rfl | hb
    · exact h2
    · exact i3 bs hb

/-- Nothing is on its way yet. -/
theorem Joined.strung {d : Dev S R X} {m : Modem} (h : Joined M sc In ⟨d, m, none⟩) : Strung M sc In ⟨d, m, []⟩ := by
  obtain ⟨s, c, T, h1, h2, h3⟩ := h
  exact ⟨s, c, T, _, _, _, _, _, Holds.start h1 h2 h3⟩

end

end Spec
end Verif
