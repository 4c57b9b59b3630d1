import Verif.Model.Blocking

/-!
# Properties C25–C27: the blocking wrapper
-/

namespace Verif.Props.Blocking

open Verif Verif.Blocking

variable {σ : Type}

/-- A device never delivers more than it is asked for. -/
def Honest (d : BDev σ) : Prop := ∀ s n, (d.read s n).1.length ≤ n

/-- The same device with a record of all bytes it delivered (first) and all blocks handed to its `write`
(second). -/
def logged (d : BDev σ) : BDev (σ × List Byte × List (List Byte)) where
  tick s := ((d.tick s.1).1, (d.tick s.1).2, s.2)
  read s n := ((d.read s.1 n).1, (d.read s.1 n).2, s.2.1 ++ (d.read s.1 n).1, s.2.2)
  space s := ((d.space s.1).1, (d.space s.1).2, s.2)
  write s data := ((d.write s.1 data).1, (d.write s.1 data).2, s.2.1, s.2.2 ++ [data])
  processed s := ((d.processed s.1).1, (d.processed s.1).2, s.2)
  yield s := (d.yield s.1, s.2)

theorem toSize_of_nonneg (n : Int) (h : 0 ≤ n) (h2 : n < 2147483648) : toSize n = n.toNat := by
  simp only [toSize]; omega

/-- **C25.** Whatever device, clock and yield function do: a blocking read that ends has stored at most
`len` bytes, and these are exactly the bytes the device delivered during the call, in order. -/
theorem C25_read (d : BDev σ) (hd : Honest d) (fuel : Nat) (s : σ) (taken : List Byte)
    (ws : List (List Byte)) (len timeout : Int) (h0 : 0 ≤ len) (hmax : len < 2147483648)
    (out : List Byte) (s' : σ × List Byte × List (List Byte))
    (h : read (logged d) fuel (s, taken, ws) len timeout = some (out, s')) :
    (out.length : Int) ≤ len ∧ s'.2.1 = taken ++ out ∧ s'.2.2 = ws := by
  have key : ∀ (fuel : Nat) (len : Int) (got : List Byte) (q : σ × List Byte × List (List Byte))
      (start : Nat), 0 ≤ len → len < 2147483648 →
      readLoop (logged d) start timeout fuel len got q = some (out, s') →
      ∃ more, out = got ++ more ∧ (more.length : Int) ≤ len ∧ s'.2.1 = q.2.1 ++ more ∧
        s'.2.2 = q.2.2 := by
    intro fuel
    induction fuel with
    | zero =>
      intro len got q start hl _ h
      simp only [readLoop] at h
      split at h
      · obtain ⟨rfl, rfl⟩ := Prod.mk.inj (Option.some.inj h)
        exact ⟨[], by simp, by simpa using hl, by simp, rfl⟩
      · cases h
    | succ fuel ih =>
      intro len got q start hl hm h
      simp only [readLoop] at h
      split at h
      · obtain ⟨rfl, rfl⟩ := Prod.mk.inj (Option.some.inj h)
        exact ⟨[], by simp, by simpa using hl, by simp, rfl⟩
      · split at h
        · obtain ⟨rfl, rfl⟩ := Prod.mk.inj (Option.some.inj h)
          exact ⟨[], by simp, by simpa using hl, by simp [logged], rfl⟩
        · have hr : ((((logged d).read ((logged d).tick q).2 (toSize len)).1.length : Nat) : Int) ≤
              len := by
            have := hd ((logged d).tick q).2.1 (toSize len)
            rw [toSize_of_nonneg len hl hm] at this ⊢
            have h2 : ((logged d).read ((logged d).tick q).2 len.toNat).1.length ≤ len.toNat := this
            omega
          obtain ⟨more, m1, m2, m3, m4⟩ := ih _ _ _ _ (by omega) (by omega) h
          refine ⟨((logged d).read ((logged d).tick q).2 (toSize len)).1 ++ more, ?_, ?_, ?_, ?_⟩
          · rw [m1, List.append_assoc]
          · rw [List.length_append]; omega
          · rw [m3]; simp [logged]
          · rw [m4]; rfl
  obtain ⟨more, m1, m2, m3, m4⟩ := key fuel len [] _ _ h0 hmax h
  simp only [List.nil_append] at m1
  subst m1
  exact ⟨m2, by rw [m3]; simp [logged], by rw [m4]; rfl⟩

/-- The record does not influence the call: the same result comes from the device itself. -/
theorem logged_read (d : BDev σ) (fuel : Nat) (s : σ) (x : List Byte × List (List Byte))
    (len timeout : Int) :
    (read (logged d) fuel (s, x) len timeout).map (fun r => (r.1, r.2.1)) =
      read d fuel s len timeout := by
  have key : ∀ (fuel : Nat) (len : Int) (got : List Byte) (q : σ × List Byte × List (List Byte))
      (start : Nat),
      (readLoop (logged d) start timeout fuel len got q).map (fun r => (r.1, r.2.1)) =
        readLoop d start timeout fuel len got q.1 := by
    intro fuel
    induction fuel with
    | zero =>
      intro len got q start
      simp only [readLoop]
      split <;> rfl
    | succ fuel ih =>
      intro len got q start
      simp only [readLoop]
      split
      · rfl
      · have ht : ((logged d).tick q).1 = (d.tick q.1).1 := rfl
        rw [ht]
        split
        · rfl
        · exact ih _ _ _ _
  exact key fuel len [] _ _

/-- A device that delivers the bytes of a list, two at a time, and a clock advancing by 10 per yield. -/
def devEx : BDev (Nat × List Byte) where
  tick s := (s.1 % 4294967296, s)
  read s n := (s.2.take (min n 2), s.1, s.2.drop (min n 2))
  space s := (100, s)
  write s data := (data.length, s.1, s.2 ++ data)
  processed s := (false, s)
  yield s := (s.1 + 10, s.2)

theorem devEx_honest : Honest devEx := by
  intro s n
  simp only [devEx, List.length_take]
  omega

/-- Timeout 15 after 4 of the 5 bytes asked for; enough time for 3 of 5 available bytes. -/
example : read devEx 100 (0, [1, 2, 3, 4, 5, 6]) 5 15 = some ([1, 2, 3, 4], (20, [5, 6])) ∧
    read devEx 100 (4294967290, [1, 2, 3, 4, 5]) 3 15 = some ([1, 2, 3], (4294967310, [4, 5])) := by
  decide

/-- A device whose clock shows `now s` modulo 2^32, which advances by at least 1 with every yield and by
at most `G` with any call. -/
structure Clocked (d : BDev σ) (now : σ → Nat) (G : Nat) : Prop where
  shows : ∀ s, (d.tick s).1 = now s % 4294967296
  tick : ∀ s, now s ≤ now (d.tick s).2 ∧ now (d.tick s).2 ≤ now s + G
  read : ∀ s n, now s ≤ now (d.read s n).2 ∧ now (d.read s n).2 ≤ now s + G
  space : ∀ s, now s ≤ now (d.space s).2 ∧ now (d.space s).2 ≤ now s + G
  write : ∀ s x, now s ≤ now (d.write s x).2 ∧ now (d.write s x).2 ≤ now s + G
  processed : ∀ s, now s ≤ now (d.processed s).2 ∧ now (d.processed s).2 ≤ now s + G
  yield : ∀ s, now s + 1 ≤ now (d.yield s) ∧ now (d.yield s) ≤ now s + G

theorem devEx_clocked : Clocked devEx (·.1) 10 := by
  constructor <;> intros <;> simp [devEx]

theorem expired_iff (t0 t : Nat) (T : Int) (hT : 0 ≤ T) (hT2 : T < 2147483648) (h : t0 ≤ t)
    (hg : t < t0 + 4294967296) :
    expired (t % 4294967296) (t0 % 4294967296) T = true ↔ t0 + T.toNat < t := by
  simp only [expired, decide_eq_true_eq]
  simp only [toTick]
  omega

/-- **C26**, read. If every poll advances the clock, by no more than `G` per call, a blocking read ends,
not later than `T` plus one polling period; if it stored fewer than `len` bytes it has waited longer than
the timeout. -/
theorem C26_read_ends (d : BDev σ) (now : σ → Nat) (G : Nat) (hc : Clocked d now G) (hd : Honest d)
    (s : σ) (len T : Int) (h0 : 0 ≤ len) (hmax : len < 2147483648) (hT : 0 ≤ T)
    (hT2 : T + 4 * G < 2147483648) :
    ∃ fuel out s', read d fuel s len T = some (out, s') ∧
      now s' ≤ now s + T.toNat + 4 * G ∧
      ((out.length : Int) < len → now s + T.toNat < now s') := by
  have key : ∀ (fuel : Nat) (len : Int) (got : List Byte) (q : σ),
      0 ≤ len → len < 2147483648 → now s ≤ now q → now q ≤ now s + T.toNat + 3 * G →
      now s + T.toNat < now q + fuel →
      ∃ fuel' out s', readLoop d (now s % 4294967296) T fuel' len got q = some (out, s') ∧
        now s' ≤ now s + T.toNat + 4 * G ∧
        ((out.length : Int) < got.length + len → now s + T.toNat < now s') := by
    intro fuel
    induction fuel with
    | zero =>
      intro len got q hl hm h1 h2 h3
      by_cases hz : len = 0
      · refine ⟨1, got, q, by simp [readLoop, hz], by omega, ?_⟩
        intro h; omega
      · have ht := hc.tick q
        have he : expired (now q % 4294967296) (now s % 4294967296) T = true :=
          (expired_iff _ _ T hT (by omega) h1 (by omega)).mpr (by omega)
        refine ⟨1, got, (d.tick q).2, ?_, by omega, by intro _; omega⟩
        simp only [readLoop, hz, if_false, hc.shows, he, if_true]
    | succ fuel ih =>
      intro len got q hl hm h1 h2 h3
      by_cases hz : len = 0
      · refine ⟨1, got, q, by simp [readLoop, hz], by omega, ?_⟩
        intro h; omega
      · have ht := hc.tick q
        by_cases he : expired (now q % 4294967296) (now s % 4294967296) T = true
        · have he' := (expired_iff _ _ T hT (by omega) h1 (by omega)).mp he
          refine ⟨1, got, (d.tick q).2, ?_, by omega, by intro _; omega⟩
          simp only [readLoop, hz, if_false, hc.shows, he, if_true]
        · have he' : ¬ now s + T.toNat < now q := fun h =>
            he ((expired_iff _ _ T hT (by omega) h1 (by omega)).mpr h)
          have hr := hc.read (d.tick q).2 (toSize len)
          have hy := hc.yield (d.read (d.tick q).2 (toSize len)).2
          have hlen := hd (d.tick q).2 (toSize len)
          have hts := toSize_of_nonneg len hl hm
          obtain ⟨f', out, s', r1, r2, r3⟩ := ih (len - (d.read (d.tick q).2 (toSize len)).1.length)
            (got ++ (d.read (d.tick q).2 (toSize len)).1)
            (d.yield (d.read (d.tick q).2 (toSize len)).2)
            (by omega) (by omega) (by omega) (by omega) (by omega)
          refine ⟨f' + 1, out, s', ?_, r2, ?_⟩
          · simp only [readLoop, hz, if_false, hc.shows, he]
            exact r1
          · intro h
            apply r3
            rw [List.length_append]
            omega
  have ht := hc.tick s
  obtain ⟨f, out, s', r1, r2, r3⟩ := key (T.toNat + 1) len [] (d.tick s).2 h0 hmax (by omega)
    (by omega) (by omega)
  refine ⟨f, out, s', ?_, r2, ?_⟩
  · simp only [Blocking.read, hc.shows]; exact r1
  · intro h; apply r3; simpa using h

/-- **C26**, exception: the timeout −1 becomes 2^32−1 ticks, which never expires, so a read from a silent
device does not end, whatever the clock does. -/
theorem C26_minus_one_never_expires (d : BDev σ) (hsilent : ∀ s n, (d.read s n).1 = []) (fuel : Nat)
    (s : σ) (len : Int) (hl : len ≠ 0) : read d fuel s len (-1) = none := by
  have key : ∀ (fuel : Nat) (start : Nat) (q : σ),
      readLoop d start (-1) fuel len [] q = none := by
    intro fuel
    induction fuel with
    | zero => intro start q; simp [readLoop, hl]
    | succ fuel ih =>
      intro start q
      have he : expired (d.tick q).1 start (-1) = false := by
        simp only [expired, decide_eq_false_iff_not]
        simp only [toTick]
        omega
      simp only [readLoop, hl, if_false, he, Bool.false_eq_true, hsilent]
      simpa using ih _ _
  exact key fuel _ _

example : ∀ (s : Nat × List Byte) (n : Nat), (({ devEx with read := fun s _ => ([], s) } :
    BDev (Nat × List Byte)).read s n).1 = [] := fun _ _ => rfl

/-- **C26**, write: same for a blocking write. -/
theorem C26_write_ends (d : BDev σ) (now : σ → Nat) (G : Nat) (hc : Clocked d now G)
    (s : σ) (data : List Byte) (T : Int) (hT : 0 ≤ T) (hT2 : T + 8 * G < 2147483648) :
    ∃ fuel n s', write d fuel s data T = some (n, s') ∧ now s' ≤ now s + T.toNat + 8 * G := by
  have hspace : ∀ (fuel : Nat) (q : σ), now s ≤ now q → now q ≤ now s + T.toNat + 3 * G →
      now s + T.toNat < now q + fuel →
      ∃ b s', (∀ f, fuel + 1 ≤ f → spaceLoop d (now s % 4294967296) T data.length f q =
          some (b, s')) ∧ now s ≤ now s' ∧ now s' ≤ now s + T.toNat + 5 * G := by
    intro fuel
    induction fuel with
    | zero =>
      intro q h1 h2 h3
      have hs := hc.space q
      have ht := hc.tick (d.space q).2
      by_cases hlt : (d.space q).1 < toSize data.length
      · have he : expired (now (d.space q).2 % 4294967296) (now s % 4294967296) T = true :=
          (expired_iff _ _ T hT (by omega) (by omega) (by omega)).mpr (by omega)
        refine ⟨false, (d.tick (d.space q).2).2, ?_, by omega, by omega⟩
        intro f hf
        obtain ⟨f, rfl⟩ : ∃ g, f = g + 1 := ⟨f - 1, by omega⟩
        simp only [spaceLoop, hlt, if_true, hc.shows, he]
      · refine ⟨true, (d.space q).2, ?_, by omega, by omega⟩
        intro f hf
        obtain ⟨f, rfl⟩ : ∃ g, f = g + 1 := ⟨f - 1, by omega⟩
        simp only [spaceLoop, hlt, if_false]
    | succ fuel ih =>
      intro q h1 h2 h3
      have hs := hc.space q
      have ht := hc.tick (d.space q).2
      by_cases hlt : (d.space q).1 < toSize data.length
      · by_cases he : expired (now (d.space q).2 % 4294967296) (now s % 4294967296) T = true
        · refine ⟨false, (d.tick (d.space q).2).2, ?_, by omega, by omega⟩
          intro f hf
          obtain ⟨f, rfl⟩ : ∃ g, f = g + 1 := ⟨f - 1, by omega⟩
          simp only [spaceLoop, hlt, if_true, hc.shows, he]
        · have he' : ¬ now s + T.toNat < now (d.space q).2 := fun h =>
            he ((expired_iff _ _ T hT (by omega) (by omega) (by omega)).mpr h)
          have hy := hc.yield (d.tick (d.space q).2).2
          obtain ⟨b, s', r1, r2, r3⟩ := ih (d.yield (d.tick (d.space q).2).2) (by omega) (by omega)
            (by omega)
          refine ⟨b, s', ?_, r2, r3⟩
          intro f hf
          obtain ⟨f, rfl⟩ : ∃ g, f = g + 1 := ⟨f - 1, by omega⟩
          simp only [spaceLoop, hlt, if_true, hc.shows, he]
          exact r1 f (by omega)
      · refine ⟨true, (d.space q).2, ?_, by omega, by omega⟩
        intro f hf
        obtain ⟨f, rfl⟩ : ∃ g, f = g + 1 := ⟨f - 1, by omega⟩
        simp only [spaceLoop, hlt, if_false]
  have hdone : ∀ (fuel : Nat) (q : σ), now s ≤ now q → now q ≤ now s + T.toNat + 6 * G →
      now s + T.toNat < now q + fuel →
      ∃ b s', (∀ f, fuel + 1 ≤ f → doneLoop d (now s % 4294967296) T f q =
          some (b, s')) ∧ now s' ≤ now s + T.toNat + 8 * G := by
    intro fuel
    induction fuel with
    | zero =>
      intro q h1 h2 h3
      have hs := hc.processed q
      have ht := hc.tick (d.processed q).2
      cases hp : (d.processed q).1 with
      | false =>
        have he : expired (now (d.processed q).2 % 4294967296) (now s % 4294967296) T = true :=
          (expired_iff _ _ T hT (by omega) (by omega) (by omega)).mpr (by omega)
        refine ⟨false, (d.tick (d.processed q).2).2, ?_, by omega⟩
        intro f hf
        obtain ⟨f, rfl⟩ : ∃ g, f = g + 1 := ⟨f - 1, by omega⟩
        simp only [doneLoop, hp, Bool.not_false, if_true, hc.shows, he]
      | true =>
        refine ⟨true, (d.processed q).2, ?_, by omega⟩
        intro f hf
        obtain ⟨f, rfl⟩ : ∃ g, f = g + 1 := ⟨f - 1, by omega⟩
        simp only [doneLoop, hp, Bool.not_true, Bool.false_eq_true, if_false]
    | succ fuel ih =>
      intro q h1 h2 h3
      have hs := hc.processed q
      have ht := hc.tick (d.processed q).2
      cases hp : (d.processed q).1 with
      | false =>
        by_cases he : expired (now (d.processed q).2 % 4294967296) (now s % 4294967296) T = true
        · refine ⟨false, (d.tick (d.processed q).2).2, ?_, by omega⟩
          intro f hf
          obtain ⟨f, rfl⟩ : ∃ g, f = g + 1 := ⟨f - 1, by omega⟩
          simp only [doneLoop, hp, Bool.not_false, if_true, hc.shows, he]
        · have he' : ¬ now s + T.toNat < now (d.processed q).2 := fun h =>
            he ((expired_iff _ _ T hT (by omega) (by omega) (by omega)).mpr h)
          have hy := hc.yield (d.tick (d.processed q).2).2
          obtain ⟨b, s', r1, r3⟩ := ih (d.yield (d.tick (d.processed q).2).2) (by omega) (by omega)
            (by omega)
          refine ⟨b, s', ?_, r3⟩
          intro f hf
          obtain ⟨f, rfl⟩ : ∃ g, f = g + 1 := ⟨f - 1, by omega⟩
          simp only [doneLoop, hp, Bool.not_false, if_true, hc.shows, he]
          exact r1 f (by omega)
      | true =>
        refine ⟨true, (d.processed q).2, ?_, by omega⟩
        intro f hf
        obtain ⟨f, rfl⟩ : ∃ g, f = g + 1 := ⟨f - 1, by omega⟩
        simp only [doneLoop, hp, Bool.not_true, Bool.false_eq_true, if_false]
  have ht := hc.tick s
  obtain ⟨b, s1, a1, a2, a3⟩ := hspace (T.toNat + 1) (d.tick s).2 (by omega) (by omega) (by omega)
  have hs1 := a1 (T.toNat + 2) (by omega)
  cases b with
  | false =>
    refine ⟨T.toNat + 2, 0, s1, ?_, by omega⟩
    simp only [write, hc.shows, hs1]
  | true =>
    have hw := hc.write s1 data
    obtain ⟨b, s2, c1, c2⟩ := hdone (T.toNat + 1) (d.write s1 data).2 (by omega) (by omega) (by omega)
    have hs2 := c1 (T.toNat + 2) (by omega)
    cases b with
    | false =>
      refine ⟨T.toNat + 2, 0, s2, ?_, c2⟩
      simp only [write, hc.shows, hs1, hs2]
    | true =>
      refine ⟨T.toNat + 2, (d.write s1 data).1, s2, ?_, c2⟩
      simp only [write, hc.shows, hs1, hs2]

/-- A device that accepts as much as it just reported free. -/
def Accepts (d : BDev σ) : Prop :=
  ∀ s x, x.length ≤ (d.space s).1 → (d.write (d.space s).2 x).1 = x.length

/-- **C27.** A blocking write returns 0 or the number of bytes given. If non-zero, the device was given
the data exactly once and then reported them processed; if 0, the device was given the data at most
once. -/
theorem C27_write (d : BDev σ) (ha : Accepts d) (fuel : Nat) (s : σ) (taken : List Byte)
    (ws : List (List Byte)) (data : List Byte) (T : Int) (hlen : data.length < 2147483648)
    (n : Nat) (s' : σ × List Byte × List (List Byte))
    (h : write (logged d) fuel (s, taken, ws) data T = some (n, s')) :
    (n = 0 ∧ (s'.2.2 = ws ∨ s'.2.2 = ws ++ [data])) ∨
      (n = data.length ∧ s'.2.2 = ws ++ [data] ∧ ∃ q, d.processed q = (true, s'.1)) := by
  have hsp : ∀ (fuel start : Nat) (q : σ × List Byte × List (List Byte)) b s',
      spaceLoop (logged d) start T data.length fuel q = some (b, s') →
      s'.2 = q.2 ∧ (b = true → ∃ q0, data.length ≤ (d.space q0).1 ∧ s'.1 = (d.space q0).2) := by
    intro fuel
    induction fuel with
    | zero => intro start q b s' h; simp [spaceLoop] at h
    | succ fuel ih =>
      intro start q b s' h
      simp only [spaceLoop] at h
      split at h
      · split at h
        · obtain ⟨rfl, rfl⟩ := Prod.mk.inj (Option.some.inj h)
          exact ⟨rfl, by simp⟩
        · obtain ⟨h1, h2⟩ := ih _ _ _ _ h
          exact ⟨h1, h2⟩
      · rename_i hge
        obtain ⟨rfl, rfl⟩ := Prod.mk.inj (Option.some.inj h)
        refine ⟨rfl, fun _ => ⟨q.1, ?_, rfl⟩⟩
        have h3 : ¬ (d.space q.1).1 < toSize (data.length : Int) := hge
        rw [toSize_of_nonneg _ (by omega) (by omega)] at h3
        omega
  have hdn : ∀ (fuel start : Nat) (q : σ × List Byte × List (List Byte)) b s',
      doneLoop (logged d) start T fuel q = some (b, s') →
      s'.2 = q.2 ∧ (b = true → ∃ q0, d.processed q0 = (true, s'.1)) := by
    intro fuel
    induction fuel with
    | zero => intro start q b s' h; simp [doneLoop] at h
    | succ fuel ih =>
      intro start q b s' h
      simp only [doneLoop] at h
      split at h
      · split at h
        · obtain ⟨rfl, rfl⟩ := Prod.mk.inj (Option.some.inj h)
          exact ⟨rfl, by simp⟩
        · obtain ⟨h1, h2⟩ := ih _ _ _ _ h
          exact ⟨h1, h2⟩
      · rename_i hp
        obtain ⟨rfl, rfl⟩ := Prod.mk.inj (Option.some.inj h)
        refine ⟨rfl, fun _ => ⟨q.1, ?_⟩⟩
        have h3 : (d.processed q.1).1 = true := by simpa [logged] using hp
        exact Prod.ext h3 rfl
  simp only [write] at h
  split at h
  · cases h
  · rename_i s1 hs1
    obtain ⟨rfl, rfl⟩ := Prod.mk.inj (Option.some.inj h)
    obtain ⟨h1, _⟩ := hsp _ _ _ _ _ hs1
    left
    exact ⟨rfl, Or.inl (by rw [h1]; rfl)⟩
  · rename_i s1 hs1
    obtain ⟨h1, h2⟩ := hsp _ _ _ _ _ hs1
    obtain ⟨q0, hq0, hq1⟩ := h2 rfl
    split at h
    · cases h
    · rename_i s2 hs2
      obtain ⟨rfl, rfl⟩ := Prod.mk.inj (Option.some.inj h)
      obtain ⟨d1, _⟩ := hdn _ _ _ _ _ hs2
      left
      refine ⟨rfl, Or.inr ?_⟩
      rw [d1]
      show s1.2.2 ++ [data] = _
      rw [h1]; rfl
    · rename_i s2 hs2
      obtain ⟨rfl, rfl⟩ := Prod.mk.inj (Option.some.inj h)
      obtain ⟨d1, d2⟩ := hdn _ _ _ _ _ hs2
      right
      refine ⟨?_, ?_, d2 rfl⟩
      · show (d.write s1.1 data).1 = _
        rw [hq1]; exact ha q0 data hq0
      · rw [d1]
        show s1.2.2 ++ [data] = _
        rw [h1]; rfl

/-- **C27**, refuted converse: result 0 although the device took the data and keeps them. -/
theorem C27_zero_but_sent : ∃ (d : BDev (Nat × List Byte)) (s s' : Nat × List Byte) (fuel : Nat),
    Accepts d ∧ write d fuel s [1, 2, 3] 15 = some (0, s') ∧ s.2 = [] ∧ s'.2 = [1, 2, 3] := by
  refine ⟨devEx, (0, []), (20, [1, 2, 3]), 10, ?_, by decide, rfl, rfl⟩
  intro s x _
  rfl

/-- A write larger than the device's buffer is never accepted, whatever the timeout. -/
theorem C27_too_long (d : BDev σ) (fuel : Nat) (s : σ) (data : List Byte) (T : Int)
    (hlen : data.length < 2147483648) (hsmall : ∀ q, (d.space q).1 < data.length) (n : Nat) (s' : σ)
    (h : write d fuel s data T = some (n, s')) : n = 0 := by
  have hsp : ∀ (fuel start : Nat) (q : σ) b s',
      spaceLoop d start T data.length fuel q = some (b, s') → b = false := by
    intro fuel
    induction fuel with
    | zero => intro start q b s' h; simp [spaceLoop] at h
    | succ fuel ih =>
      intro start q b s' h
      simp only [spaceLoop] at h
      split at h
      · split at h
        · exact (Prod.mk.inj (Option.some.inj h)).1.symm
        · exact ih _ _ _ _ h
      · rename_i hge
        rw [toSize_of_nonneg _ (by omega) (by omega)] at hge
        have := hsmall q
        omega
  simp only [write] at h
  split at h
  · cases h
  · exact (Prod.mk.inj (Option.some.inj h)).1.symm
  · rename_i s1 hs1
    have := hsp _ _ _ _ _ hs1
    cases this

end Verif.Props.Blocking
