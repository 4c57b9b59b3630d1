import Verif.Lemmas.Large
import Verif.Lemmas.Limit

/-! Requested data blocks fit into the receive buffer of the serial device. -/

namespace Verif

open Dev Spec

variable {S R X : Type}

/-- At most `n` bytes are due, and the open request asks for at most `n`. -/
structure Roomy (w : List Byte) (hdr : List Byte → Option Nat) (n : Nat) (t : List Ev) : Prop where
  due : ((rx w hdr).after t).due ≤ n
  req : ∀ args, ((rx w hdr).after t).req = some args → ∃ g more, args = g :: more ∧ digits g ≤ n

variable {w : List Byte} {hdr : List Byte → Option Nat} {n : Nat}

theorem Roomy.event {t : List Ev} (h : Roomy w hdr n t) (e : Ev) (he : ∀ g, e ≠ .cmd w g)
    (ho : Honours w hdr (t ++ [e])) : Roomy w hdr n (t ++ [e]) := by
  have hx := (always_snoc.mp ho).2
  obtain ⟨h1, h2⟩ := h
  constructor
  · rw [Observer.after_snoc]
    cases e <;> simp only [rx] at * <;> first
      | exact h1
      | omega
      | (rename_i l
         split
         · rename_i args k hq hk
           obtain ⟨g, more, e1, e2⟩ := hx l args k rfl hq hk
           obtain ⟨g', more', e3, e4⟩ := h2 args hq
           rw [e1] at e3
           injection e3 with e3 _
           subst e3
           exact Nat.le_trans e2 e4
         · exact h1)
  · intro args ha
    rw [Observer.after_snoc] at ha
    revert ha
    cases e <;> simp only [rx] <;> first
      | exact fun ha => h2 args ha
      | (intro ha; simp at ha; done)
      | skip
    case cmd v g =>
      intro ha
      rw [if_neg (fun q => he g (by rw [q]))] at ha
      simp at ha
    case arg v g =>
      intro ha
      cases hq : ((rx w hdr).after t).req with
      | none => simp only [rx] at hq; rw [hq] at ha; simp at ha
      | some a =>
        obtain ⟨g', more, e1, e2⟩ := h2 a hq
        simp only [rx] at hq
        rw [hq] at ha
        simp only [Option.map_some, Option.some.injEq] at ha
        exact ⟨g', more ++ [g], by rw [← ha, e1]; rfl, e2⟩
    case line l =>
      split
      · intro ha; simp at ha
      · exact fun ha => h2 args ha

theorem Roomy.events {t : List Ev} (h : Roomy w hdr n t) (new : List Ev) (he : ∀ g, .cmd w g ∉ new)
    (ho : Honours w hdr (t ++ new)) : Roomy w hdr n (t ++ new) := by
  revert he ho
  refine snocInd (P := fun new => (∀ g, .cmd w g ∉ new) → Honours w hdr (t ++ new) → Roomy w hdr n (t ++ new))
    ?_ ?_ new
  · intro _ _; simpa using h
  · intro l a ih he ho
    rw [← List.append_assoc] at ho ⊢
    exact (ih (fun g q => he g (by simp [q])) (honours_append ho)).event a
      (fun g q => he g (by simp [q])) ho



theorem Roomy.asked {t : List Ev} (h : Roomy w hdr n t) {m k : Nat} (hm : m ≤ n) (g g' v : List Byte) :
    Roomy w hdr n (t ++ [.cmd w g, .arg (dec m) ((dec m).take k), .arg v g']) := by
  constructor
  · simpa [rx] using h.due
  · intro args ha
    have : args = [(dec m).take k, g'] := by
      simpa [rx, eq_comm] using ha
    refine ⟨_, _, this, ?_⟩
    rw [digits_eq]
    exact Nat.le_trans (decVal_take _ _) (Nat.le_trans (decVal_dec_le m) hm)

theorem Asks.roomy {reserve : Nat} {lim : Dev S R X → Nat} {d e : Dev S R X} (h : Asks w reserve lim d e)
    (hq : RxQuiet d.ser) (hs : e.ser.readBufferSize < 2 ^ 64) (hl : 0 < lim e)
    (hn : e.ser.readBufferSize - reserve = n) (hr : Honours w hdr d.trace → Roomy w hdr n d.trace)
    (ho : Honours w hdr e.trace) : Roomy w hdr n e.trace := by
  obtain ⟨new, h1, h2⟩ := h
  rw [h1] at ho ⊢
  have hr' := hr (honours_append ho)
  rcases h2 with h2 | ⟨pre, m, k, g, g', a1, a2, a3, a4, a5, a6⟩
  · exact hr'.events new h2 ho
  · subst a1
    rw [← List.append_assoc] at ho ⊢
    obtain ⟨b1, b2⟩ := a6 hq hs hl
    refine Roomy.asked (hr'.events pre a2 (honours_append ho)) ?_ g g' lineEnd
    unfold Ser.rxFree at b2
    omega

theorem roomy_call {d e : Dev S R X} (a : Api d e) (hr : Honours w hdr d.trace → Roomy w hdr n d.trace)
    (ho : Honours w hdr e.trace) : Roomy w hdr n e.trace := by
  have key : ∀ x : Ev, (∀ g, x ≠ .cmd w g) → e.trace = d.trace ++ [x] → Roomy w hdr n e.trace := by
    intro x hx h
    rw [h] at ho ⊢
    exact (hr (honours_append ho)).event x hx ho
  cases a with
  | quiet h1 h2 h3 h4 h5 =>
    rcases h5 with h5 | ⟨x, hx, h5⟩
    · rw [h5] at ho ⊢; exact hr ho
    · exact key x (fun g q => by rw [q] at hx; simp [isCall] at hx) h5
  | userRx bs h1 h3 h4 h5 => exact key _ (by simp) h5
  | reset h1 h3 h4 h5 => exact key _ (by simp) h5

theorem roomy_nil : Roomy w hdr n [] := ⟨Nat.zero_le _, by simp [rx]⟩

theorem roomy_reset {t : List Ev} (h : t = [.apiReset]) : Roomy w hdr n t := by
  subst h
  exact ⟨by simp [rx, Observer.after], by simp [rx, Observer.after]⟩

namespace Sim7x00

theorem roomy_step (p : Platform) {n : Nat} (d : D) (op : Op) (hq : RxQuiet d.ser) (hl : 0 < d.ext.maxRx)
    (hz : d.ser.readBufferSize < 2 ^ 64) (hn : d.ser.readBufferSize - 8 = n)
    (hr : Honours requestSim (headerSim p) d.trace → Roomy requestSim (headerSim p) n d.trace)
    (ho : Honours requestSim (headerSim p) (step p d op).trace) : Roomy requestSim (headerSim p) n (step p d op).trace := by
  have hs : (step p d op).ser.readBufferSize = d.ser.readBufferSize := (later_step p d op).rxSize
  by_cases h : ∃ ok, op = .run ok
  · obtain ⟨ok, rfl⟩ := h
    exact (asks_run p d ok).roomy hq (by
      have : (run p d ok).ser.readBufferSize = d.ser.readBufferSize := hs
      rw [this]; exact hz) (by show 0 < (run p d ok).ext.maxRx; rw [run_maxRx]; exact hl) (by
      have : (run p d ok).ser.readBufferSize = d.ser.readBufferSize := hs
      rw [this]; exact hn) hr ho
  · exact roomy_call (step_api p d op fun ok e => h ⟨ok, e⟩) hr ho

theorem roomy_exec (p : Platform) {n : Nat} (d : D) (hq : RxQuiet d.ser) (hl : 0 < d.ext.maxRx)
    (hz : d.ser.readBufferSize < 2 ^ 64) (hn : d.ser.readBufferSize - 8 = n)
    (hr : Roomy requestSim (headerSim p) n d.trace) (ops : List Op)
    (ho : Honours requestSim (headerSim p) (exec (step p) d ops).trace) : Roomy requestSim (headerSim p) n (exec (step p) d ops).trace := by
  have key : ∀ (ops : List Op) (d : D), RxQuiet d.ser → 0 < d.ext.maxRx → d.ser.readBufferSize < 2 ^ 64 →
      d.ser.readBufferSize - 8 = n → (Honours requestSim (headerSim p) d.trace → Roomy requestSim (headerSim p) n d.trace) →
      Honours requestSim (headerSim p) (exec (step p) d ops).trace → Roomy requestSim (headerSim p) n (exec (step p) d ops).trace := by
    intro ops
    induction ops with
    | nil => intro d _ hl _ _ hr ho; exact hr ho
    | cons op ops ih =>
      intro d hq hl hz hn hr ho
      have hs : (step p d op).ser.readBufferSize = d.ser.readBufferSize := (later_step p d op).rxSize
      exact ih _ (hq.later (later_step p d op)) (by rw [step_maxRx]; exact hl) (by rw [hs]; exact hz) (by rw [hs]; exact hn)
        (roomy_step p d op hq hl hz hn hr) ho
  exact key ops d hq hl hz hn (fun _ => hr) ho

end Sim7x00

namespace Sim800

theorem roomy_step (p : Platform) {n : Nat} (d : D) (op : Op) (hq : RxQuiet d.ser) (hl : 0 < d.ext.maxRx)
    (hz : d.ser.readBufferSize < 2 ^ 64) (hn : d.ser.readBufferSize - 8 = n)
    (hr : Honours requestSim (headerSim p) d.trace → Roomy requestSim (headerSim p) n d.trace)
    (ho : Honours requestSim (headerSim p) (step p d op).trace) : Roomy requestSim (headerSim p) n (step p d op).trace := by
  have hs : (step p d op).ser.readBufferSize = d.ser.readBufferSize := (later_step p d op).rxSize
  by_cases h : ∃ ok, op = .run ok
  · obtain ⟨ok, rfl⟩ := h
    exact (asks_run p d ok).roomy hq (by
      have : (run p d ok).ser.readBufferSize = d.ser.readBufferSize := hs
      rw [this]; exact hz) (by show 0 < (run p d ok).ext.maxRx; rw [run_maxRx]; exact hl) (by
      have : (run p d ok).ser.readBufferSize = d.ser.readBufferSize := hs
      rw [this]; exact hn) hr ho
  · exact roomy_call (step_api p d op fun ok e => h ⟨ok, e⟩) hr ho

theorem roomy_exec (p : Platform) {n : Nat} (d : D) (hq : RxQuiet d.ser) (hl : 0 < d.ext.maxRx)
    (hz : d.ser.readBufferSize < 2 ^ 64) (hn : d.ser.readBufferSize - 8 = n)
    (hr : Roomy requestSim (headerSim p) n d.trace) (ops : List Op)
    (ho : Honours requestSim (headerSim p) (exec (step p) d ops).trace) : Roomy requestSim (headerSim p) n (exec (step p) d ops).trace := by
  have key : ∀ (ops : List Op) (d : D), RxQuiet d.ser → 0 < d.ext.maxRx → d.ser.readBufferSize < 2 ^ 64 →
      d.ser.readBufferSize - 8 = n → (Honours requestSim (headerSim p) d.trace → Roomy requestSim (headerSim p) n d.trace) →
      Honours requestSim (headerSim p) (exec (step p) d ops).trace → Roomy requestSim (headerSim p) n (exec (step p) d ops).trace := by
    intro ops
    induction ops with
    | nil => intro d _ hl _ _ hr ho; exact hr ho
    | cons op ops ih =>
      intro d hq hl hz hn hr ho
      have hs : (step p d op).ser.readBufferSize = d.ser.readBufferSize := (later_step p d op).rxSize
      exact ih _ (hq.later (later_step p d op)) (by rw [step_maxRx]; exact hl) (by rw [hs]; exact hz) (by rw [hs]; exact hn)
        (roomy_step p d op hq hl hz hn hr) ho
  exact key ops d hq hl hz hn (fun _ => hr) ho

end Sim800

namespace Espressif

theorem roomy_step (p : Platform) {n : Nat} (d : D) (op : Op) (hq : RxQuiet d.ser)
    (hz : d.ser.readBufferSize < 2 ^ 64) (hn : d.ser.readBufferSize - 30 = n)
    (hr : Honours requestWifi (headerEsp p) d.trace → Roomy requestWifi (headerEsp p) n d.trace)
    (ho : Honours requestWifi (headerEsp p) (step p d op).trace) : Roomy requestWifi (headerEsp p) n (step p d op).trace := by
  have hs : (step p d op).ser.readBufferSize = d.ser.readBufferSize := (later_step p d op).rxSize
  by_cases h : ∃ ok, op = .run ok
  · obtain ⟨ok, rfl⟩ := h
    exact (asks_run p d ok).roomy hq (by
      have : (run p d ok).ser.readBufferSize = d.ser.readBufferSize := hs
      rw [this]; exact hz) (by show 0 < maxRx; decide) (by
      have : (run p d ok).ser.readBufferSize = d.ser.readBufferSize := hs
      rw [this]; exact hn) hr ho
  · exact roomy_call (step_api p d op fun ok e => h ⟨ok, e⟩) hr ho

theorem roomy_exec (p : Platform) {n : Nat} (d : D) (hq : RxQuiet d.ser)
    (hz : d.ser.readBufferSize < 2 ^ 64) (hn : d.ser.readBufferSize - 30 = n)
    (hr : Roomy requestWifi (headerEsp p) n d.trace) (ops : List Op)
    (ho : Honours requestWifi (headerEsp p) (exec (step p) d ops).trace) : Roomy requestWifi (headerEsp p) n (exec (step p) d ops).trace := by
  have key : ∀ (ops : List Op) (d : D), RxQuiet d.ser → d.ser.readBufferSize < 2 ^ 64 →
      d.ser.readBufferSize - 30 = n → (Honours requestWifi (headerEsp p) d.trace → Roomy requestWifi (headerEsp p) n d.trace) →
      Honours requestWifi (headerEsp p) (exec (step p) d ops).trace → Roomy requestWifi (headerEsp p) n (exec (step p) d ops).trace := by
    intro ops
    induction ops with
    | nil => intro d _ _ _ hr ho; exact hr ho
    | cons op ops ih =>
      intro d hq hz hn hr ho
      have hs : (step p d op).ser.readBufferSize = d.ser.readBufferSize := (later_step p d op).rxSize
      exact ih _ (hq.later (later_step p d op)) (by rw [hs]; exact hz) (by rw [hs]; exact hn)
        (roomy_step p d op hq hz hn hr) ho
  exact key ops d hq hz hn (fun _ => hr) ho

end Espressif

namespace CC1352P7

theorem roomy_step (p : Platform) {n : Nat} (d : D) (op : Op) (hq : RxQuiet d.ser)
    (hz : d.ser.readBufferSize < 2 ^ 64) (hn : d.ser.readBufferSize - 30 = n)
    (hr : Honours requestWifi (headerCC p) d.trace → Roomy requestWifi (headerCC p) n d.trace)
    (ho : Honours requestWifi (headerCC p) (step p d op).trace) : Roomy requestWifi (headerCC p) n (step p d op).trace := by
  have hs : (step p d op).ser.readBufferSize = d.ser.readBufferSize := (later_step p d op).rxSize
  by_cases h : ∃ ok, op = .run ok
  · obtain ⟨ok, rfl⟩ := h
    exact (asks_run p d ok).roomy hq (by
      have : (run p d ok).ser.readBufferSize = d.ser.readBufferSize := hs
      rw [this]; exact hz) (by show 0 < maxRx; decide) (by
      have : (run p d ok).ser.readBufferSize = d.ser.readBufferSize := hs
      rw [this]; exact hn) hr ho
  · exact roomy_call (step_api p d op fun ok e => h ⟨ok, e⟩) hr ho

theorem roomy_exec (p : Platform) {n : Nat} (d : D) (hq : RxQuiet d.ser)
    (hz : d.ser.readBufferSize < 2 ^ 64) (hn : d.ser.readBufferSize - 30 = n)
    (hr : Roomy requestWifi (headerCC p) n d.trace) (ops : List Op)
    (ho : Honours requestWifi (headerCC p) (exec (step p) d ops).trace) : Roomy requestWifi (headerCC p) n (exec (step p) d ops).trace := by
  have key : ∀ (ops : List Op) (d : D), RxQuiet d.ser → d.ser.readBufferSize < 2 ^ 64 →
      d.ser.readBufferSize - 30 = n → (Honours requestWifi (headerCC p) d.trace → Roomy requestWifi (headerCC p) n d.trace) →
      Honours requestWifi (headerCC p) (exec (step p) d ops).trace → Roomy requestWifi (headerCC p) n (exec (step p) d ops).trace := by
    intro ops
    induction ops with
    | nil => intro d _ _ _ hr ho; exact hr ho
    | cons op ops ih =>
      intro d hq hz hn hr ho
      have hs : (step p d op).ser.readBufferSize = d.ser.readBufferSize := (later_step p d op).rxSize
      exact ih _ (hq.later (later_step p d op)) (by rw [hs]; exact hz) (by rw [hs]; exact hn)
        (roomy_step p d op hq hz hn hr) ho
  exact key ops d hq hz hn (fun _ => hr) ho

end CC1352P7

end Verif
