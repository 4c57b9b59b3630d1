import Verif.Lemmas.Proto
import Verif.Spec.Cable

/-!
What is on its way from the modem: the modem as the driver knows it, and what it has said and received since.
-/

namespace Verif.Spec

open Dev

def Act.useful : Act → Bool
  | .tell => true
  | .speak => true
  | _ => false

/-- The modem went from a state to another, and said a text meanwhile. The number tells how much the server has sent, the
Boolean whether it did anything useful. -/
inductive Path (t : Tongue) (cap : Nat) (meaning : List (List Byte)) : Modem → List Byte → Nat → Bool → Modem → Prop
  | nil {m} : Path t cap meaning m [] 0 false m
  | net {m bs loud x k v m'} : bs ≠ [] → m.inbox.length + bs.length ≤ cap → Path t cap meaning (m.arrive t bs loud) x k v m' →
      Path t cap meaning m x (k + 132 * bs.length) true m'
  | say {m a l m1 x k v m'} : Fair meaning a → l ≠ [] → m.say t a = some (l, m1) → Path t cap meaning m1 x k v m' →
      Path t cap meaning m (l ++ x) k (v || a.useful) m'
  | give {m z m1 x k v m'} : m.give 1 = some ([z], m1) → Path t cap meaning m1 x k v m' → Path t cap meaning m (z :: x) k true m'

variable {t : Tongue} {cap : Nat} {meaning : List (List Byte)} {m m1 m2 : Modem} {x y : List Byte} {k k' : Nat} {v v' : Bool}

theorem Path.trans (h : Path t cap meaning m x k v m1) (h' : Path t cap meaning m1 y k' v' m2) :
    Path t cap meaning m (x ++ y) (k + k') (v || v') m2 := by
  induction h with
  | nil => simpa using h'
  | net h1 h2 _ ih =>
    have := Path.net h1 h2 (ih h')
    simpa [Nat.add_right_comm] using this
  | say h1 h2 h3 _ ih =>
    have := Path.say h1 h2 h3 (ih h')
    rw [← List.append_assoc, Bool.or_right_comm] at this
    exact this
  | give h1 _ ih =>
    have := Path.give h1 (ih h')
    simpa using this

theorem Path.one {a : Act} {l : List Byte} (ha : Fair meaning a) (hl : l ≠ []) (hs : m.say t a = some (l, m1)) :
    Path t cap meaning m l 0 a.useful m1 := by
  have := Path.say (cap := cap) ha hl hs .nil
  simpa using this

/-- Bytes of a block. -/
theorem Path.gives (j : Nat) {b : List Byte} (hp : m.phase = .data b) (hb : b ≠ []) :
    ∃ u m', m.give (j + 1) = some (u, m') ∧ u ≠ [] ∧ Path t cap meaning m u 0 true m' := by
  obtain ⟨ph, inbox, outbox, cm, news⟩ := m
  simp only at hp
  subst hp
  induction j generalizing b with
  | zero =>
    cases b with
    | nil => exact absurd rfl hb
    | cons z b => exact ⟨_, _, rfl, by simp, .give rfl .nil⟩
  | succ j ih =>
    cases b with
    | nil => exact absurd rfl hb
    | cons z b =>
      cases b with
      | nil => exact ⟨_, _, rfl, by simp, .give rfl .nil⟩
      | cons z' b =>
        obtain ⟨u, m', h1, -, h2⟩ := ih (b := z' :: b) (by simp)
        refine ⟨z :: u, m', ?_, by simp, ?_⟩
        · simp only [Modem.give, Option.some.injEq, Prod.mk.injEq, List.take_succ_cons, List.drop_succ_cons] at h1 ⊢
          obtain ⟨rfl, rfl⟩ := h1
          exact ⟨rfl, rfl⟩
        · exact .give rfl h2

/-- Only noise. -/
theorem Path.quiet (h : Path t cap meaning m x k false m1) : m1 = m ∧ k = 0 := by
  generalize hv : false = v at h
  induction h with
  | nil => exact ⟨rfl, rfl⟩
  | net => cases hv
  | @say m a l m1 x k v m' h1 h2 h3 h4 ih =>
    cases v with
    | true => simp at hv
    | false =>
      obtain ⟨rfl, rfl⟩ := ih rfl
      refine ⟨?_, rfl⟩
      cases a with
      | noise l =>
        simp only [Modem.say] at h3
        split at h3
        · cases h3
        · simp only [Option.some.injEq, Prod.mk.injEq] at h3
          exact h3.2.symm
      | tell => simp [Act.useful] at hv
      | speak => simp [Act.useful] at hv
      | _ => cases h3
  | give => cases hv

theorem Modem.arrive_listen (bs : List Byte) (loud : Bool) (u : List Byte) :
    (m.arrive t bs loud).listen t u = (m.listen t u).arrive t bs loud := by
  obtain ⟨ph, inbox, outbox, cm, news⟩ := m
  cases ph <;> simp only [Modem.arrive, Modem.listen] <;> (repeat' split) <;> rfl

/-- The modem is ready to listen. -/
def Phase.open : Phase → Bool
  | .idle => true
  | .payload _ => true
  | _ => false

theorem say_open {a : Act} {l u : List Byte} (h : m.phase.open = true) (hs : m.say t a = some (l, m1)) :
    m1.phase.open = true ∧ (m.listen t u).say t a = some (l, m1.listen t u) := by
  obtain ⟨ph, inbox, outbox, cm, news⟩ := m
  cases a with
  | noise x =>
    simp only [Modem.say] at hs
    split at hs
    · cases hs
    · simp only [Option.some.injEq, Prod.mk.injEq] at hs
      obtain ⟨rfl, rfl⟩ := hs
      refine ⟨h, ?_⟩
      cases ph <;> simp only [Phase.open, Bool.false_eq_true] at h <;> simp only [Modem.listen] <;> (repeat' split) <;> rfl
  | tell =>
    simp only [Modem.say] at hs
    split at hs
    · rename_i hn
      simp only [Option.some.injEq, Prod.mk.injEq] at hs
      obtain ⟨rfl, rfl⟩ := hs
      refine ⟨h, ?_⟩
      obtain ⟨-, rfl⟩ := hn
      cases ph <;> simp only [Phase.open, Bool.false_eq_true] at h <;> simp only [Modem.listen] <;> (repeat' split) <;> rfl
    · cases hs
  | speak => cases ph <;> simp only [Phase.open, Bool.false_eq_true] at h <;> cases hs
  | _ => cases hs

/-- What the driver says does not interfere with what is on its way. -/
theorem Path.listen (h : Path t cap meaning m x k v m1) (hp : m.phase.open = true) (u : List Byte) :
    Path t cap meaning (m.listen t u) x k v (m1.listen t u) := by
  induction h with
  | nil => exact .nil
  | @net m bs loud x k v m' h1 h2 _ ih =>
    have hi : ∀ m : Modem, (m.listen t u).inbox = m.inbox := by
      rintro ⟨ph, inbox, outbox, cm, news⟩
      cases ph <;> simp only [Modem.listen] <;> (repeat' split) <;> rfl
    refine Path.net (loud := loud) (v := v) h1 (by rw [hi]; exact h2) ?_
    rw [← Modem.arrive_listen]
    exact ih hp
  | say h1 h2 h3 _ ih =>
    obtain ⟨h4, h5⟩ := say_open (u := u) hp h3
    exact .say h1 h2 h5 (ih h4)
  | @give m z m1 x k v m' h1 _ ih =>
    obtain ⟨ph, inbox, outbox, cm, news⟩ := m
    cases ph <;> simp only [Phase.open, Bool.false_eq_true] at hp <;> cases h1

/-- A state of the modem that does not occur otherwise. -/
def Sane (M : Mach) (m : Modem) : Prop :=
  match m.phase with
  | .data b => b ≠ []
  | .header n => 0 < n ∧ m.inbox ≠ []
  | .count => M.polls = true
  | _ => True

variable {M : Mach} {s : Spot} {c : Conf}

theorem Fit.sane (h : Fit M cap s c m) : Sane M m := by
  have h1 := h.meet
  have h2 := h.rcv
  unfold Sane
  obtain ⟨ph, inbox, outbox, cm, news⟩ := m
  cases ph <;> cases s <;> simp only [Meet] at h1 <;> first | trivial | exact h1 | skip
  · refine ⟨by omega, fun e => ?_⟩
    subst e
    simp only [List.length_nil] at h2
    omega
  · exact h1.1

theorem sane_say (h : Sane M m) {a : Act} {l : List Byte} (hs : m.say t a = some (l, m1)) : Sane M m1 := by
  obtain ⟨ph, inbox, outbox, cm, news⟩ := m
  cases a with
  | noise x =>
    simp only [Modem.say] at hs
    split at hs
    · cases hs
    · simp only [Option.some.injEq, Prod.mk.injEq] at hs
      obtain ⟨rfl, rfl⟩ := hs
      exact h
  | tell =>
    simp only [Modem.say] at hs
    split at hs
    · simp only [Option.some.injEq, Prod.mk.injEq] at hs
      obtain ⟨rfl, rfl⟩ := hs
      exact h
    · cases hs
  | speak =>
    cases ph <;> simp only [Modem.say, Modem.speak, reduceCtorEq, Option.some.injEq, Prod.mk.injEq] at hs <;> obtain ⟨rfl, rfl⟩ := hs <;> try trivial
    simp only [Sane] at h ⊢
    have := List.length_pos_iff.mpr h.2
    intro e
    have := congrArg List.length e
    simp only [List.length_take, List.length_nil] at this
    omega
  | _ => cases hs

theorem Path.sane (h : Path t cap meaning m x k v m1) (hs : Sane M m) : Sane M m1 := by
  induction h with
  | nil => exact hs
  | @net m bs loud x k v m' h1 h2 _ ih =>
    apply ih
    obtain ⟨ph, inbox, outbox, cm, news⟩ := m
    cases ph <;> first | exact hs | (simp only [Sane, Modem.arrive] at hs ⊢; exact ⟨hs.1, by simp [hs.2]⟩)
  | say h1 h2 h3 _ ih => exact ih (sane_say hs h3)
  | @give m z m1 x k v m' h1 _ ih =>
    apply ih
    obtain ⟨ph, inbox, outbox, cm, news⟩ := m
    cases ph <;> simp only [Modem.give, reduceCtorEq, Option.some.injEq, Prod.mk.injEq] at h1
    obtain ⟨-, rfl⟩ := h1
    unfold Sane
    dsimp only
    split
    · rename_i e; split at e
      · cases e
      · rename_i h2; cases e; exact h2
    · rename_i e; split at e <;> cases e
    · rename_i e; split at e <;> cases e
    · trivial

/-- What the modem says is not empty. -/
theorem say_ne' (g : M.Good c) (h : Sane M m) {a : Act} (ha : Fair meaning a) {l : List Byte} (hs : m.say M.t a = some (l, m1)) : l ≠ [] := by
  obtain ⟨ph, inbox, outbox, cm, news⟩ := m
  cases a with
  | noise x =>
    simp only [Modem.say] at hs
    split at hs
    · cases hs
    · simp only [Option.some.injEq, Prod.mk.injEq] at hs
      rw [← hs.1]
      obtain ⟨t, e, -⟩ := ha.1.text
      rw [e]; simp
  | tell =>
    simp only [Modem.say] at hs
    split at hs
    · simp only [Option.some.injEq, Prod.mk.injEq] at hs
      rw [← hs.1]; exact g.announce _
    · cases hs
  | speak =>
    cases ph <;> simp only [Modem.say, Modem.speak, reduceCtorEq, Option.some.injEq, Prod.mk.injEq] at hs
    · rw [← hs.1]; simp
    · rw [← hs.1]; exact g.confirm
    · rw [← hs.1]; exact g.count h _
    · rw [← hs.1]; simp
    · rw [← hs.1]; exact g.header _ _
  | _ => cases hs

/-- What the modem has taken and given. -/
theorem Path.stock (h : Path t cap meaning m x k v m1) :
    m1.outbox = m.outbox ∧ ∃ z, m1.came = m.came ++ z ∧ m1.inbox.length ≤ m.inbox.length + z.length ∧ k = 132 * z.length := by
  induction h with
  | nil => exact ⟨rfl, [], by simp, by simp, rfl⟩
  | @net m bs loud x k v m' h1 h2 _ ih =>
    obtain ⟨i1, z, i2, i3, i4⟩ := ih
    refine ⟨i1, bs ++ z, ?_, ?_, ?_⟩
    · rw [i2]; show m.came ++ bs ++ z = _; rw [List.append_assoc]
    · have : (m.arrive t bs loud).inbox = m.inbox ++ bs := rfl
      rw [this, List.length_append] at i3
      rw [List.length_append]; omega
    · rw [i4, List.length_append]; omega
  | @say m a l m1 x k v m' h1 h2 h3 _ ih =>
    obtain ⟨i1, z, i2, i3, i4⟩ := ih
    have : m1.outbox = m.outbox ∧ m1.came = m.came ∧ m1.inbox.length ≤ m.inbox.length := by
      obtain ⟨ph, inbox, outbox, cm, news⟩ := m
      cases a with
      | noise x =>
        simp only [Modem.say] at h3
        split at h3
        · cases h3
        · simp only [Option.some.injEq, Prod.mk.injEq] at h3
          obtain ⟨-, rfl⟩ := h3
          exact ⟨rfl, rfl, Nat.le_refl _⟩
      | tell =>
        simp only [Modem.say] at h3
        split at h3
        · simp only [Option.some.injEq, Prod.mk.injEq] at h3
          obtain ⟨-, rfl⟩ := h3
          exact ⟨rfl, rfl, Nat.le_refl _⟩
        · cases h3
      | speak =>
        cases ph <;> simp only [Modem.say, Modem.speak, reduceCtorEq, Option.some.injEq, Prod.mk.injEq] at h3 <;> obtain ⟨-, rfl⟩ := h3 <;>
          first | exact ⟨rfl, rfl, Nat.le_refl _⟩ | exact ⟨rfl, rfl, by simp⟩
      | _ => cases h3
    exact ⟨i1.trans this.1, z, by rw [i2, this.2.1], by omega, i4⟩
  | @give m z m1 x k v m' h1 _ ih =>
    obtain ⟨i1, z, i2, i3, i4⟩ := ih
    have : m1.outbox = m.outbox ∧ m1.came = m.came ∧ m1.inbox = m.inbox := by
      obtain ⟨ph, inbox, outbox, cm, news⟩ := m
      cases ph <;> simp only [Modem.give, reduceCtorEq, Option.some.injEq, Prod.mk.injEq] at h1
      obtain ⟨-, rfl⟩ := h1
      exact ⟨rfl, rfl, rfl⟩
    exact ⟨i1.trans this.1, z, by rw [i2, this.2.1], by rw [← this.2.2]; exact i3, i4⟩

end Verif.Spec
