import Verif.Spec.Coroutine

/-! # Lemmas for the reentrant task macros -/

namespace Verif.Reenter

open Verif Verif.Spec

theorem startOf_snoc_le (log : List (Nat × Nat)) (x : Nat × Nat) (q : Nat) (h : q ≤ log.length) :
    startOf (log ++ [x]) q = startOf log q := by
  cases q with
  | zero => rfl
  | succ q => simp only [startOf]; rw [List.getElem?_append_left (by omega)]

theorem startOf_snoc (log : List (Nat × Nat)) (x : Nat × Nat) :
    startOf (log ++ [x]) (log.length + 1) = x.2 := by
  simp [startOf]

theorem tickAt_append (runs : Runs) (x : Nat × (Nat → Bool)) (r : Nat) (h : r < runs.length) :
    tickAt (runs ++ [x]) r = tickAt runs r := by
  simp only [tickAt]; rw [List.getElem?_append_left h]

theorem condAt_append (runs : Runs) (x : Nat × (Nat → Bool)) (r p : Nat) (h : r < runs.length) :
    condAt (runs ++ [x]) r p = condAt runs r p := by
  simp only [condAt]; rw [List.getElem?_append_left h]

theorem tickAt_last (runs : Runs) (x : Nat × (Nat → Bool)) :
    tickAt (runs ++ [x]) runs.length = x.1 := by simp [tickAt]

theorem condAt_last (runs : Runs) (x : Nat × (Nat → Bool)) (p : Nat) :
    condAt (runs ++ [x]) runs.length p = x.2 p := by simp [condAt]

theorem passable_append (runs : Runs) (x : Nat × (Nat → Bool)) (st : Stmt) (p start r : Nat)
    (h : r < runs.length) (hs : start ≤ r) :
    passable (runs ++ [x]) st p start r ↔ passable runs st p start r := by
  cases st <;> simp only [passable, condAt_append runs x r p h, tickAt_append runs x r h,
    tickAt_append runs x start (by omega)]

theorem startOf_le {body : List Stmt} {runs : Runs} {log : List (Nat × Nat)}
    (hl : Legal body runs log) (p : Nat) (hp : p < log.length) :
    startOf log p < runs.length := by
  cases p with
  | zero =>
    obtain ⟨x, hx⟩ : ∃ x, log[0]? = some x := ⟨_, List.getElem?_eq_getElem hp⟩
    have := (hl 0 x hx).2.1
    simp only [startOf]; omega
  | succ p =>
    obtain ⟨x, hx⟩ : ∃ x, log[p]? = some x := ⟨_, List.getElem?_eq_getElem (by omega)⟩
    have := (hl p x hx).2.1
    simp only [startOf, hx]; exact this

theorem legal_append {body : List Stmt} {runs : Runs} {log : List (Nat × Nat)}
    (hl : Legal body runs log) (x : Nat × (Nat → Bool)) : Legal body (runs ++ [x]) log := by
  intro p y hy
  obtain ⟨h1, h2, st, h3, h4, h5, h6⟩ := hl p y hy
  refine ⟨h1, by simp; omega, st, h3, h4, ?_, ?_⟩
  · exact (passable_append runs x st p _ _ h2 h4).mpr h5
  · intro r h7 h8 h9
    exact h6 r h7 h8 ((passable_append runs x st p _ _ (by omega) h7).mp h9)

theorem legal_snoc {body : List Stmt} {runs : Runs} {log : List (Nat × Nat)}
    (hl : Legal body runs log) (R : Nat) (hR : R < runs.length) (st : Stmt)
    (hst : body[log.length]? = some st) (h1 : startOf log log.length ≤ R)
    (h2 : passable runs st log.length (startOf log log.length) R)
    (h3 : ∀ r, startOf log log.length ≤ r → r < R →
      ¬ passable runs st log.length (startOf log log.length) r) :
    Legal body runs (log ++ [(log.length, R)]) := by
  intro p x hx
  by_cases hp : p < log.length
  · rw [List.getElem?_append_left hp] at hx
    rw [startOf_snoc_le _ _ _ (by omega)]
    exact hl p x hx
  · rw [List.getElem?_append_right (by omega)] at hx
    have hpl : p = log.length := by
      apply Decidable.byContradiction; intro hne
      rw [List.getElem?_eq_none (by simp; omega)] at hx
      cases hx
    subst hpl
    simp only [Nat.sub_self, List.getElem?_cons_zero, Option.some.injEq] at hx
    subst hx
    rw [startOf_snoc_le _ _ _ (by omega)]
    exact ⟨rfl, hR, st, hst, h1, h2, h3⟩

theorem acts_append (a b : List Stmt) : acts (a ++ b) = acts a ++ acts b := by
  induction a with
  | nil => rfl
  | cons st a ih => cases st <;> simp [acts, ih]

theorem lastDelay_append (d0 : Nat) (a b : List Stmt) :
    lastDelay d0 (a ++ b) = lastDelay (lastDelay d0 a) b := by
  induction a generalizing d0 with
  | nil => rfl
  | cons st a ih => simp [lastDelay, ih]

theorem take_succ_of {body : List Stmt} {p : Nat} {st : Stmt} (h : body[p]? = some st) :
    body.take (p + 1) = body.take p ++ [st] := by
  rw [List.take_add_one, h]; rfl

/-- State in the middle of a call, statement `p` just reached. -/
structure Mid (body : List Stmt) (runs : Runs) (R d0 : Nat) (s : RTask) : Prop where
  legal : Legal body runs s.log
  le : s.log.length ≤ body.length
  out : s.out = acts (body.take s.log.length)
  start : startOf s.log s.log.length = R
  run : s.run = R
  tick : s.task.lastRun = tickAt runs R
  tr : s.task.timeoutRunning = false
  dl : s.task.delay = lastDelay d0 (body.take s.log.length) % 65536

def isTO : Stmt → Bool
  | .condTimeout _ => true
  | .condTimeoutDelay _ _ => true
  | _ => false

/-- State at the end of a call. -/
structure Post (lab : Nat → Nat) (body : List Stmt) (runs : Runs) (d0 : Nat) (s : RTask) : Prop where
  legal : Legal body runs s.log
  out : s.out = acts (body.take s.log.length)
  entry : s.entry = lab (s.log.length + 1)
  le : s.log.length ≤ body.length
  start : startOf s.log s.log.length < runs.length
  prompt : Prompt body runs s.log
  dl : s.task.delay = lastDelay d0 (body.take (s.log.length + 1)) % 65536
  mac : ∀ st, body[s.log.length]? = some st → st.isMacro = true ∧
    (isTO st = true → s.task.timeoutRunning = true ∧
      s.task.timeout = tickAt runs (startOf s.log s.log.length)) ∧
    (isTO st = false → s.task.timeoutRunning = false)

theorem mid_note {body : List Stmt} {runs : Runs} {R d0 : Nat} {s s' : RTask} {p : Nat} {st : Stmt}
    (h : Mid body runs R d0 s) (hR : R + 1 = runs.length) (hp : s.log.length = p)
    (hst : body[p]? = some st)
    (hpass : passable runs st p R R)
    (hlog : s'.log = s.log) (hrun : s'.run = s.run)
    (hout : s'.out = s.out ++ acts [st])
    (hlr : s'.task.lastRun = s.task.lastRun) (htr : s'.task.timeoutRunning = false)
    (hdl : s'.task.delay = (((delayOf st).map (· % 65536)).getD s.task.delay)) :
    Mid body runs R d0 (s'.note p) ∧ (s'.note p).log.length = p + 1 := by
  have hlen : (s'.note p).log.length = p + 1 := by simp [RTask.note, hlog, hp]
  have hlg : (s'.note p).log = s.log ++ [(s.log.length, R)] := by
    simp [RTask.note, hlog, hrun, h.run, hp]
  have hst' : body[s.log.length]? = some st := by rw [hp]; exact hst
  refine ⟨⟨?_, ?_, ?_, ?_, ?_, ?_, ?_, ?_⟩, hlen⟩
  · rw [hlg]
    refine legal_snoc h.legal R (by omega) st hst' (by rw [h.start]; omega) ?_ ?_
    · rw [h.start, hp]; exact hpass
    · rw [h.start]; intro r h1 h2; omega
  · have : p < body.length := (List.getElem?_eq_some_iff.mp hst).1
    omega
  · rw [hlen, take_succ_of hst, acts_append]
    show s'.out = _
    rw [hout, h.out, hp]
  · rw [hlen, hlg, ← hp, startOf_snoc]
  · show s'.run = R
    rw [hrun, h.run]
  · show s'.task.lastRun = _
    rw [hlr, h.tick]
  · exact htr
  · rw [hlen, take_succ_of hst, lastDelay_append]
    show s'.task.delay = _
    rw [hdl]
    simp only [lastDelay]
    cases delayOf st with
    | none => simp [h.dl, hp]
    | some d => simp

theorem post_stop {lab : Nat → Nat} {body : List Stmt} {runs : Runs} {R d0 : Nat} {s s' : RTask}
    {p : Nat} {st : Stmt}
    (h : Mid body runs R d0 s) (hR : R + 1 = runs.length) (hp : s.log.length = p)
    (hst : body[p]? = some st) (hm : st.isMacro = true) (hlab : lab (p + 1) < 256)
    (hpass : ¬ passable runs st p R R)
    (hlog : s'.log = s.log) (hout : s'.out = s.out) (hentry : s'.entry = lab (p + 1) % 256)
    (htr1 : isTO st = true → s'.task.timeoutRunning = true ∧ s'.task.timeout = s.task.lastRun)
    (htr0 : isTO st = false → s'.task.timeoutRunning = false)
    (hdl : s'.task.delay = (((delayOf st).map (· % 65536)).getD s.task.delay)) :
    Post lab body runs d0 s' := by
  refine ⟨?_, ?_, ?_, ?_, ?_, ?_, ?_, ?_⟩
  · rw [hlog]; exact h.legal
  · rw [hlog, hout]; exact h.out
  · rw [hlog, hp, hentry, Nat.mod_eq_of_lt hlab]
  · rw [hlog]; exact h.le
  · rw [hlog, h.start]; omega
  · intro st' hst' r h1 h2
    rw [hlog] at hst' h1 ⊢
    rw [h.start] at h1 ⊢
    rw [hp, hst] at hst'
    obtain rfl := Option.some.inj hst'
    have : r = R := by omega
    rw [this, hp]; exact hpass
  · rw [hlog, hp, take_succ_of hst, lastDelay_append, hdl]
    simp only [lastDelay]
    cases delayOf st with
    | none => simp [h.dl, hp]
    | some d => simp
  · intro st' hst'
    rw [hlog, hp, hst] at hst'
    obtain rfl := Option.some.inj hst'
    refine ⟨hm, ?_, htr0⟩
    intro ht
    rw [hlog, h.start, ← h.tick]
    exact htr1 ht

theorem isTimeout_iff (t : Task) (T : Nat) : t.isTimeout T = true ↔
    T % 4294967296 < (t.lastRun + 4294967296 - t.timeout) % 4294967296 := by
  simp [Task.isTimeout, sub32]

theorem exec_post (lab : Nat → Nat) (body : List Stmt) (runs : Runs) (x : Nat × (Nat → Bool))
    (d0 : Nat) (hlab : ∀ p, p ≤ body.length + 1 → lab p < 256) (rest : List Stmt) :
    ∀ (p : Nat) (s : RTask), body.drop p = rest → s.log.length = p →
      Mid body (runs ++ [x]) runs.length d0 s →
      Post lab body (runs ++ [x]) d0 (RTask.exec lab x.2 p rest s) ∧
        (RTask.exec lab x.2 p rest s).run = runs.length ∧
        (RTask.exec lab x.2 p rest s).task.lastRun = s.task.lastRun := by
  induction rest with
  | nil =>
    intro p s hd hp hm
    have hle : body.length ≤ p := List.drop_eq_nil_iff.mp hd
    have hpe : p = body.length := by have := hm.le; omega
    refine ⟨⟨hm.legal, hm.out, ?_, hm.le, ?_, ?_, ?_, ?_⟩, hm.run, rfl⟩
    · show lab (p + 1) % 256 = lab (s.log.length + 1)
      rw [hp, Nat.mod_eq_of_lt (hlab _ (by omega))]
    · have : startOf s.log s.log.length < (runs ++ [x]).length := by rw [hm.start]; simp
      exact this
    · intro st hst
      have hst' : body[s.log.length]? = some st := hst
      rw [hp, List.getElem?_eq_none hle] at hst'
      cases hst'
    · show s.task.delay = lastDelay d0 (body.take (s.log.length + 1)) % 65536
      rw [hm.dl, hp, List.take_of_length_le hle, List.take_of_length_le (by omega)]
    · intro st hst
      have hst' : body[s.log.length]? = some st := hst
      rw [hp, List.getElem?_eq_none hle] at hst'
      cases hst'
  | cons st rest ih =>
    intro p s hd hp hm
    have hst : body[p]? = some st := by
      have := congrArg (fun l => l[0]?) hd
      simpa using this
    have hpl : p < body.length := (List.getElem?_eq_some_iff.mp hst).1
    have hd' : body.drop (p + 1) = rest := by
      have := congrArg List.tail hd
      simpa [List.tail_drop] using this
    have hR : runs.length + 1 = (runs ++ [x]).length := by simp
    have hl : lab (p + 1) < 256 := hlab _ (by omega)
    have hcl := condAt_last runs x p
    have htl := hm.tick
    cases st with
    | act a =>
      simp only [RTask.exec]
      obtain ⟨m1, m2⟩ := mid_note (s' := { s with out := s.out ++ [a] }) hm hR hp hst trivial
        rfl rfl rfl rfl hm.tr rfl
      exact ih (p + 1) _ hd' m2 m1
    | setDelay d =>
      simp only [RTask.exec]
      obtain ⟨m1, m2⟩ := mid_note (s' := { s with task := s.task.setDelay d }) hm hR hp hst trivial
        rfl rfl (by simp [acts]) rfl hm.tr rfl
      exact ih (p + 1) _ hd' m2 m1
    | yield =>
      refine ⟨?_, hm.run, rfl⟩
      exact post_stop hm hR hp hst rfl hl (by simp [passable]) rfl rfl rfl (by simp [isTO])
        (fun _ => hm.tr) rfl
    | delay d =>
      refine ⟨?_, hm.run, rfl⟩
      exact post_stop hm hR hp hst rfl hl (by simp [passable]) rfl rfl rfl (by simp [isTO])
        (fun _ => hm.tr) rfl
    | cond =>
      simp only [RTask.exec]
      by_cases hc : x.2 p = true
      · simp only [hc, Bool.not_true, Bool.false_eq_true, if_false]
        obtain ⟨m1, m2⟩ := mid_note
          (s' := { s with task := s.task.setDelay 0 }.setEntry (lab (p + 1))) hm hR hp hst
          (by simp only [passable, hcl, hc]) rfl rfl (by simp [acts, RTask.setEntry]) rfl hm.tr rfl
        exact ih (p + 1) _ hd' m2 m1
      · have hc' : x.2 p = false := by simpa using hc
        simp only [hc', Bool.not_false, if_true]
        refine ⟨?_, hm.run, rfl⟩
        exact post_stop hm hR hp hst rfl hl (by simp [passable, hcl, hc']) rfl rfl rfl
          (by simp [isTO]) (fun _ => hm.tr) rfl
    | condDelay d =>
      simp only [RTask.exec]
      by_cases hc : x.2 p = true
      · simp only [hc, Bool.not_true, Bool.false_eq_true, if_false]
        obtain ⟨m1, m2⟩ := mid_note
          (s' := { s with task := s.task.setDelay d }.setEntry (lab (p + 1))) hm hR hp hst
          (by simp only [passable, hcl, hc]) rfl rfl (by simp [acts, RTask.setEntry]) rfl hm.tr rfl
        exact ih (p + 1) _ hd' m2 m1
      · have hc' : x.2 p = false := by simpa using hc
        simp only [hc', Bool.not_false, if_true]
        refine ⟨?_, hm.run, rfl⟩
        exact post_stop hm hR hp hst rfl hl (by simp [passable, hcl, hc']) rfl rfl rfl
          (by simp [isTO]) (fun _ => hm.tr) rfl
    | condTimeout T =>
      simp only [RTask.exec]
      have hto : (({ s with task := s.task.startTimeout.setDelay 0 } : RTask).setEntry
          (lab (p + 1))).task.isTimeout T = false := by
        rw [Bool.eq_false_iff, ne_eq, isTimeout_iff]
        simp [RTask.setEntry, Task.startTimeout, hm.tr, Task.setDelay]
      by_cases hc : x.2 p = true
      · simp only [hc, Bool.not_true, Bool.and_false, Bool.false_eq_true, if_false]
        obtain ⟨m1, m2⟩ := mid_note
          (s' := { ({ s with task := s.task.startTimeout.setDelay 0 } : RTask).setEntry
            (lab (p + 1)) with task := (({ s with task := s.task.startTimeout.setDelay 0 } :
              RTask).setEntry (lab (p + 1))).task.resetTimeout })
          hm hR hp hst
          (by left; simp only [hcl, hc]) rfl rfl (by simp [acts, RTask.setEntry])
          (by simp [RTask.setEntry, Task.startTimeout, hm.tr, Task.setDelay, Task.resetTimeout])
          rfl rfl
        have := ih (p + 1) _ hd' m2 m1
        refine ⟨this.1, this.2.1, this.2.2.trans ?_⟩
        simp [RTask.setEntry, Task.startTimeout, hm.tr, Task.setDelay, Task.resetTimeout, RTask.note]
      · have hc' : x.2 p = false := by simpa using hc
        simp only [hc', hto, Bool.not_false, Bool.and_true, if_true]
        refine ⟨?_, hm.run, ?_⟩
        · refine post_stop hm hR hp hst rfl hl ?_ rfl rfl rfl ?_ (by simp [isTO]) rfl
          · simp [passable, hcl, hc']
          · intro _
            simp [RTask.setEntry, Task.startTimeout, hm.tr, Task.setDelay]
        · simp [RTask.setEntry, Task.startTimeout, hm.tr, Task.setDelay]
    | condTimeoutDelay T d =>
      simp only [RTask.exec]
      have hto : (({ s with task := s.task.startTimeout.setDelay d } : RTask).setEntry
          (lab (p + 1))).task.isTimeout T = false := by
        rw [Bool.eq_false_iff, ne_eq, isTimeout_iff]
        simp [RTask.setEntry, Task.startTimeout, hm.tr, Task.setDelay]
      by_cases hc : x.2 p = true
      · simp only [hc, Bool.not_true, Bool.and_false, Bool.false_eq_true, if_false]
        obtain ⟨m1, m2⟩ := mid_note
          (s' := { ({ s with task := s.task.startTimeout.setDelay d } : RTask).setEntry
            (lab (p + 1)) with task := (({ s with task := s.task.startTimeout.setDelay d } :
              RTask).setEntry (lab (p + 1))).task.resetTimeout })
          hm hR hp hst
          (by left; simp only [hcl, hc]) rfl rfl (by simp [acts, RTask.setEntry])
          (by simp [RTask.setEntry, Task.startTimeout, hm.tr, Task.setDelay, Task.resetTimeout])
          rfl rfl
        have := ih (p + 1) _ hd' m2 m1
        refine ⟨this.1, this.2.1, this.2.2.trans ?_⟩
        simp [RTask.setEntry, Task.startTimeout, hm.tr, Task.setDelay, Task.resetTimeout, RTask.note]
      · have hc' : x.2 p = false := by simpa using hc
        simp only [hc', hto, Bool.not_false, Bool.and_true, if_true]
        refine ⟨?_, hm.run, ?_⟩
        · refine post_stop hm hR hp hst rfl hl ?_ rfl rfl rfl ?_ (by simp [isTO]) rfl
          · simp [passable, hcl, hc']
          · intro _
            simp [RTask.setEntry, Task.startTimeout, hm.tr, Task.setDelay]
        · simp [RTask.setEntry, Task.startTimeout, hm.tr, Task.setDelay]

theorem search_some (lab : Nat → Nat) (n : Nat)
    (hinj : ∀ p q, p ≤ n → q ≤ n → lab p = lab q → p = q) (k : Nat) (st : Stmt)
    (rest : List Stmt) : ∀ (p : Nat), p + rest.length + 1 ≤ n →
      rest[k]? = some st → st.isMacro = true →
      RTask.search lab (lab (p + k + 1)) p rest = some (p + k, st, rest.drop (k + 1)) := by
  induction rest generalizing k with
  | nil => intro p _ h; simp at h
  | cons st' rest ih =>
    intro p hn h hm
    simp only [List.length_cons] at hn
    cases k with
    | zero =>
      simp only [List.getElem?_cons_zero, Option.some.injEq] at h
      subst h
      simp [RTask.search, hm]
    | succ k =>
      simp only [List.getElem?_cons_succ] at h
      have hk : k < rest.length := (List.getElem?_eq_some_iff.mp h).1
      have hne : ¬ lab (p + 1) = lab (p + (k + 1) + 1) := by
        intro he
        have := hinj _ _ (by omega) (by omega) he
        omega
      simp only [RTask.search, beq_iff_eq, hne, Bool.and_eq_true, and_false, if_false]
      have := ih k (p + 1) (by omega) h hm
      have he : p + 1 + k = p + (k + 1) := by omega
      rw [he] at this
      simpa using this

theorem search_none (lab : Nat → Nat) (n : Nat)
    (hinj : ∀ p q, p ≤ n → q ≤ n → lab p = lab q → p = q)
    (rest : List Stmt) : ∀ (p : Nat), p + rest.length + 1 ≤ n →
      RTask.search lab (lab (p + rest.length + 1)) p rest = none := by
  induction rest with
  | nil => intro p _; rfl
  | cons st rest ih =>
    intro p hn
    simp only [List.length_cons] at hn ⊢
    have hne : ¬ lab (p + 1) = lab (p + (rest.length + 1) + 1) := by
      intro he
      have := hinj _ _ (by omega) (by omega) he
      omega
    simp only [RTask.search, beq_iff_eq, hne, Bool.and_eq_true, and_false, if_false]
    have := ih (p + 1) (by omega)
    have he : p + 1 + rest.length = p + (rest.length + 1) := by omega
    rw [he] at this
    exact this

/-- Passing the wait at which the previous call stopped. -/
theorem mid_resume {lab : Nat → Nat} {body : List Stmt} {runs : Runs} {d0 : Nat} {s s' : RTask}
    {x : Nat × (Nat → Bool)} {st : Stmt}
    (h : Post lab body runs d0 s) (hrun : s.run = runs.length)
    (hst : body[s.log.length]? = some st)
    (hpass : passable (runs ++ [x]) st s.log.length (startOf s.log s.log.length) runs.length)
    (hlog : s'.log = s.log) (hout : s'.out = s.out) (hr : s'.run = s.run)
    (htick : s'.task.lastRun = x.1) (htr : s'.task.timeoutRunning = false)
    (hdl : s'.task.delay = s.task.delay) :
    Mid body (runs ++ [x]) runs.length d0 (s'.note s.log.length) ∧
      (s'.note s.log.length).log.length = s.log.length + 1 := by
  have hlen : (s'.note s.log.length).log.length = s.log.length + 1 := by simp [RTask.note, hlog]
  have hlg : (s'.note s.log.length).log = s.log ++ [(s.log.length, runs.length)] := by
    simp [RTask.note, hlog, hr, hrun]
  have hm := h.mac st hst
  have hacts : acts [st] = [] := by
    cases st <;> first | rfl | (simp [Stmt.isMacro] at hm)
  have hlt : s.log.length < body.length := (List.getElem?_eq_some_iff.mp hst).1
  refine ⟨⟨?_, by omega, ?_, ?_, ?_, ?_, htr, ?_⟩, hlen⟩
  · rw [hlg]
    refine legal_snoc (legal_append h.legal x) runs.length (by simp) st hst
      (Nat.le_of_lt h.start) hpass ?_
    intro r h1 h2 h3
    exact h.prompt st hst r h1 h2 ((passable_append runs x st _ _ _ h2 h1).mp h3)
  · rw [hlen, take_succ_of hst, acts_append, hacts, List.append_nil]
    show s'.out = _
    rw [hout, h.out]
  · rw [hlen, hlg, startOf_snoc]
  · show s'.run = _
    rw [hr, hrun]
  · show s'.task.lastRun = _
    rw [htick, tickAt_last]
  · rw [hlen]
    show s'.task.delay = _
    rw [hdl, h.dl]

/-- Staying at the wait at which the previous call stopped. -/
theorem post_stay {lab : Nat → Nat} {body : List Stmt} {runs : Runs} {d0 : Nat} {s s' : RTask}
    {x : Nat × (Nat → Bool)} (h : Post lab body runs d0 s)
    (hno : ∀ st, body[s.log.length]? = some st →
      ¬ passable (runs ++ [x]) st s.log.length (startOf s.log s.log.length) runs.length)
    (hlog : s'.log = s.log) (hout : s'.out = s.out) (hentry : s'.entry = s.entry)
    (htr : s'.task.timeoutRunning = s.task.timeoutRunning) (hto : s'.task.timeout = s.task.timeout)
    (hdl : s'.task.delay = s.task.delay) :
    Post lab body (runs ++ [x]) d0 s' := by
  refine ⟨?_, ?_, ?_, ?_, ?_, ?_, ?_, ?_⟩
  · rw [hlog]; exact legal_append h.legal x
  · rw [hlog, hout]; exact h.out
  · rw [hlog, hentry]; exact h.entry
  · rw [hlog]; exact h.le
  · rw [hlog]; have := h.start; simp; omega
  · intro st hst r h1 h2
    rw [hlog] at hst h1 ⊢
    by_cases hr : r < runs.length
    · intro h3
      exact h.prompt st hst r h1 hr ((passable_append runs x st _ _ _ hr h1).mp h3)
    · have : r = runs.length := by simp at h2; omega
      rw [this]
      exact hno st hst
  · rw [hlog, hdl]; exact h.dl
  · intro st hst
    rw [hlog] at hst ⊢
    rw [htr, hto, tickAt_append runs x _ h.start]
    exact h.mac st hst

theorem call_post (lab : Nat → Nat) (body : List Stmt) (runs : Runs) (x : Nat × (Nat → Bool))
    (d0 : Nat) (hlab : ∀ p, p ≤ body.length + 1 → lab p < 256)
    (hinj : ∀ p q, p ≤ body.length + 1 → q ≤ body.length + 1 → lab p = lab q → p = q)
    (s : RTask) (h : Post lab body runs d0 s) (hrun : s.run = runs.length) :
    Post lab body (runs ++ [x]) d0 (RTask.call lab body s x) ∧
      (RTask.call lab body s x).run = (runs ++ [x]).length := by
  have hne : ¬ s.entry = lab 0 := by
    rw [h.entry]; intro he
    have := hinj _ _ (by have := h.le; omega) (by omega) he
    omega
  have post_run : ∀ s' : RTask, Post lab body (runs ++ [x]) d0 s' → s'.run = runs.length →
      Post lab body (runs ++ [x]) d0 { s' with run := s'.run + 1 } ∧
      ({ s' with run := s'.run + 1 } : RTask).run = (runs ++ [x]).length := by
    intro s' hp hr
    exact ⟨⟨hp.legal, hp.out, hp.entry, hp.le, hp.start, hp.prompt, hp.dl, hp.mac⟩, by simp [hr]⟩
  have hcl := condAt_last runs x s.log.length
  simp only [RTask.call, beq_iff_eq, hne, if_false]
  suffices hh : ∀ s' : RTask, s' = (match RTask.search lab s.entry 0 body with
      | some (p, st, r) => RTask.enter lab x.2 p st r { s with task := s.task.setLastRun x.1 }
      | none => { s with task := s.task.setLastRun x.1 }) →
      Post lab body (runs ++ [x]) d0 s' ∧ s'.run = runs.length by
    exact post_run _ (hh _ rfl).1 (hh _ rfl).2
  · intro s' hs'
    subst hs'
    cases hst : body[s.log.length]? with
    | none =>
      have hle : s.log.length = body.length := by
        have h1 := h.le
        have h2 := List.getElem?_eq_none_iff.mp hst
        omega
      have hs : RTask.search lab s.entry 0 body = none := by
        have := search_none lab (body.length + 1) hinj body 0 (by omega)
        rw [h.entry, hle]
        simpa using this
      rw [hs]
      refine ⟨post_stay h ?_ rfl rfl rfl rfl rfl rfl, hrun⟩
      intro st hst'; rw [hst] at hst'; cases hst'
    | some st =>
      have hm := h.mac st hst
      have hs := search_some lab (body.length + 1) hinj s.log.length st body 0 (by omega) hst hm.1
      simp only [Nat.zero_add] at hs
      rw [← h.entry] at hs
      rw [hs]
      simp only
      have hstart := h.start
      have hstay : ¬ passable (runs ++ [x]) st s.log.length (startOf s.log s.log.length) runs.length →
          Post lab body (runs ++ [x]) d0 { s with task := s.task.setLastRun x.1 } ∧
            ({ s with task := s.task.setLastRun x.1 } : RTask).run = runs.length := by
        intro hno
        refine ⟨post_stay h ?_ rfl rfl rfl rfl rfl rfl, hrun⟩
        intro st' hst'
        rw [hst] at hst'
        obtain rfl := Option.some.inj hst'
        exact hno
      have hgo : ∀ s' : RTask,
          passable (runs ++ [x]) st s.log.length (startOf s.log s.log.length) runs.length →
          s'.log = s.log → s'.out = s.out → s'.run = s.run → s'.task.lastRun = x.1 →
          s'.task.timeoutRunning = false → s'.task.delay = s.task.delay →
          Post lab body (runs ++ [x]) d0 (RTask.exec lab x.2 (s.log.length + 1)
            (body.drop (s.log.length + 1)) (s'.note s.log.length)) ∧
            (RTask.exec lab x.2 (s.log.length + 1)
            (body.drop (s.log.length + 1)) (s'.note s.log.length)).run = runs.length := by
        intro s' hp h1 h2 h3 h4 h5 h6
        obtain ⟨m1, m2⟩ := mid_resume h hrun hst hp h1 h2 h3 h4 h5 h6
        have := exec_post lab body runs x d0 hlab _ _ _ rfl m2 m1
        exact ⟨this.1, this.2.1⟩
      have hto : isTO st = true → ∀ T, (s.task.setLastRun x.1).isTimeout T = true ↔
          T % 4294967296 < (tickAt (runs ++ [x]) runs.length + 4294967296 -
            tickAt (runs ++ [x]) (startOf s.log s.log.length)) % 4294967296 := by
        intro ht T
        rw [isTimeout_iff, tickAt_last, tickAt_append runs x _ hstart, ← (hm.2.1 ht).2]
        rfl
      cases st with
      | act a => simp [Stmt.isMacro] at hm
      | setDelay d => simp [Stmt.isMacro] at hm
      | yield => exact hgo _ hstart rfl rfl rfl rfl (hm.2.2 rfl) rfl
      | delay d => exact hgo _ hstart rfl rfl rfl rfl (hm.2.2 rfl) rfl
      | cond =>
        simp only [RTask.enter]
        by_cases hc : x.2 s.log.length = true
        · simp only [hc, Bool.not_true, Bool.false_eq_true, if_false]
          exact hgo _ (by simp only [passable, hcl, hc]) rfl rfl rfl rfl (hm.2.2 rfl) rfl
        · have hc' : x.2 s.log.length = false := by simpa using hc
          simp only [hc', Bool.not_false, if_true]
          exact hstay (by simp [passable, hcl, hc'])
      | condDelay d =>
        simp only [RTask.enter]
        by_cases hc : x.2 s.log.length = true
        · simp only [hc, Bool.not_true, Bool.false_eq_true, if_false]
          exact hgo _ (by simp only [passable, hcl, hc]) rfl rfl rfl rfl (hm.2.2 rfl) rfl
        · have hc' : x.2 s.log.length = false := by simpa using hc
          simp only [hc', Bool.not_false, if_true]
          exact hstay (by simp [passable, hcl, hc'])
      | condTimeout T =>
        simp only [RTask.enter]
        have hT := hto rfl T
        by_cases hb : (!(s.task.setLastRun x.1).isTimeout T && !x.2 s.log.length) = true
        · rw [if_pos hb]
          simp only [Bool.and_eq_true, Bool.not_eq_true'] at hb
          refine hstay ?_
          rintro (hp | hp)
          · rw [hcl, hb.2] at hp; cases hp
          · rw [hT.mpr hp] at hb; simp at hb
        · rw [if_neg hb]
          refine hgo _ ?_ rfl rfl rfl rfl rfl rfl
          cases h2 : x.2 s.log.length with
          | true => left; rw [hcl, h2]
          | false =>
            right
            refine hT.mp ?_
            simpa [h2] using hb
      | condTimeoutDelay T d =>
        simp only [RTask.enter]
        have hT := hto rfl T
        by_cases hb : (!(s.task.setLastRun x.1).isTimeout T && !x.2 s.log.length) = true
        · rw [if_pos hb]
          simp only [Bool.and_eq_true, Bool.not_eq_true'] at hb
          refine hstay ?_
          rintro (hp | hp)
          · rw [hcl, hb.2] at hp; cases hp
          · rw [hT.mpr hp] at hb; simp at hb
        · rw [if_neg hb]
          refine hgo _ ?_ rfl rfl rfl rfl rfl rfl
          cases h2 : x.2 s.log.length with
          | true => left; rw [hcl, h2]
          | false =>
            right
            refine hT.mp ?_
            simpa [h2] using hb

end Verif.Reenter
