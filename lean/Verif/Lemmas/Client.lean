import Verif.Lemmas.Rely
import Verif.Props.Thread
import Verif.Spec.Client

/-!
# The task of the example as a thread
-/

namespace Verif.Client

open Duff (Test Wait Prog)
open Spec.Threads Spec.Client

variable {D : Type}

theorem body_good (api : Api D) : Good 0 6 (body api) := by
  refine ⟨by simp [body, labels], by simp [body, labels], ?_⟩
  simp [body, Closed]

theorem answer_append (a b : List Call) : answer (a ++ b) = answer a ++ answer b := by
  induction a with
  | nil => rfl
  | cons c a ih => cases c <;> simp [answer, ih]

/-- What may be known besides the calls: `K` always, `J` before data came, `L` in the loop. `A`: the loop was entered, `F n`: the
connection was given up with `n` bytes unread. -/
structure Side (api : Api D) (R : World D → World D → Prop) (K J L : World D → Prop) (A : Prop) (F : Nat → Prop) : Prop where
  others : ∀ u v, R u v → v.log = u.log ∧ v.shown = u.shown
  keep : ∀ u v, K u → R u v → K v
  start : ∀ w, K w → K (call .startDetection api.startDetection w)
  get : ∀ w, K w → api.modemDetected w.dev = true → K (call .getDetectedModem api.getDetectedModem w)
  conf : ∀ w, K w → K (call .configure api.configure w)
  host : ∀ w, K w → K (call .setHostPort api.setHostPort w)
  conn : ∀ w, K w → K (call .connect api.connect w)
  write : ∀ w, K w → api.isConnected w.dev = true →
    K (call (.write true) (api.write · request) w) ∧ J (call (.write true) (api.write · request) w)
  wait : ∀ u v, K u → J u → api.bytesAvailable u.dev = 0 → R u v → J v
  enter : ∀ w, K w → J w → api.bytesAvailable w.dev ≠ 0 → L w
  entered : ∀ w, L w → A
  read : ∀ w, K w → L w → api.isConnected w.dev = true → api.bytesAvailable w.dev ≠ 0 → K (readSome api w) ∧ L (readSome api w)
  rest : ∀ u v, K u → L u → api.isConnected u.dev = true → api.bytesAvailable u.dev = 0 → R u v → L v
  leave : ∀ w, K w → L w → api.isConnected w.dev = false → F (api.bytesAvailable w.dev)
  disc : ∀ w n, K w → K (call (.disconnect false n) api.disconnect w)
  done : ∀ w, K w → K (call .done id w)

/-- The calls so far. -/
inductive Shape (A : Prop) (F : Nat → Prop) : List Call → Prop
  | early {l : List Call} (h : l <+: opening) : Shape A F l
  | loop (a : A) (ps : List (List Byte)) : Shape A F (opening ++ ps.map Call.read)
  | late (a : A) (ps : List (List Byte)) (n : Nat) (h : F n) {e : List Call} (he : e <+: [.done]) :
      Shape A F (opening ++ ps.map Call.read ++ .disconnect false n :: e)

variable {api : Api D} {R : World D → World D → Prop} {K J L : World D → Prop} {A : Prop} {F : Nat → Prop}

/-- The calls are `l`, and what was printed agrees. -/
def At (K : World D → Prop) (l : List Call) (w : World D) : Prop := w.log = l ∧ w.shown = answer l ∧ K w

/-- What holds whenever the task rests. -/
def Rests (K : World D → Prop) (A : Prop) (F : Nat → Prop) (w : World D) : Prop := Shape A F w.log ∧ w.shown = answer w.log ∧ K w

def InLoop (K L : World D → Prop) (w : World D) : Prop :=
  (∃ ps : List (List Byte), w.log = opening ++ ps.map Call.read) ∧ w.shown = answer w.log ∧ K w ∧ L w

def Late (K : World D → Prop) (A : Prop) (F : Nat → Prop) (e : List Call) (w : World D) : Prop :=
  A ∧ (∃ (ps : List (List Byte)) (n : Nat), F n ∧ w.log = opening ++ ps.map Call.read ++ .disconnect false n :: e) ∧ w.shown = answer w.log ∧ K w

theorem At.rests {l : List Call} (hl : l <+: opening) {w : World D} (h : At K l w) : Rests K A F w :=
  ⟨by rw [h.1]; exact .early hl, by rw [h.1]; exact h.2.1, h.2.2⟩

theorem At.others (s : Side api R K J L A F) {l : List Call} {u v : World D} (h : At K l u) (r : R u v) : At K l v :=
  ⟨(s.others _ _ r).1.trans h.1, (s.others _ _ r).2.trans h.2.1, s.keep _ _ h.2.2 r⟩

theorem InLoop.rests (s : Side api R K J L A F) {w : World D} (h : InLoop K L w) : Rests K A F w := by
  obtain ⟨⟨ps, h1⟩, h2, h3, h4⟩ := h
  exact ⟨by rw [h1]; exact .loop (s.entered _ h4) ps, h2, h3⟩

theorem Late.rests {e : List Call} (he : e <+: [.done]) {w : World D} (h : Late K A F e w) : Rests K A F w := by
  obtain ⟨ha, ⟨ps, n, h1, h2⟩, h3, h4⟩ := h
  exact ⟨by rw [h2]; exact .late ha ps n h1 he, h3, h4⟩

theorem Late.others (s : Side api R K J L A F) {e : List Call} {u v : World D} (h : Late K A F e u) (r : R u v) : Late K A F e v := by
  obtain ⟨ha, ⟨ps, n, h1, h2⟩, h3, h4⟩ := h
  obtain ⟨r1, r2⟩ := s.others _ _ r
  exact ⟨ha, ⟨ps, n, h1, r1.trans h2⟩, by rw [r2, h3, r1], s.keep _ _ h4 r⟩

/-- A call that is not `read()` adds nothing to the answer. -/
theorem At.call {l : List Call} {c : Call} {f : D → D} {w : World D} (h : At K l w) (hc : answer [c] = []) (hk : K (call c f w)) :
    At K (l ++ [c]) (call c f w) := by
  refine ⟨by simp [Client.call, h.1], ?_, hk⟩
  rw [answer_append, hc, List.append_nil]
  exact h.2.1

theorem client_tri (s : Side api R K J L A F) : Tri (Rests K A F) R (At K []) (body api) (Late K A F [.done]) := by
  have pre : ∀ n, opening.take n <+: opening := fun n => List.take_prefix n _
  refine .seq (Q := At K (opening.take 1)) (.act fun w h => h.call rfl (s.start _ h.2.2)) ?_
  refine .seq (Q := fun w => At K (opening.take 1) w ∧ api.modemDetected w.dev = true) (.cond (W := At K (opening.take 1))
    (fun _ h => h.rests (pre 1)) (fun _ h _ => h) (fun _ h hc => ⟨h, hc⟩) fun _ _ h r => h.others s r) ?_
  refine .seq (Q := At K (opening.take 2)) (.act fun w h => h.1.call rfl (s.get _ h.1.2.2 h.2)) ?_
  refine .seq (Q := At K (opening.take 3)) (.act fun w h => h.call rfl (s.conf _ h.2.2)) ?_
  refine .seq (Q := At K (opening.take 4)) (.act fun w h => h.call rfl (s.host _ h.2.2)) ?_
  refine .seq (Q := At K (opening.take 5)) (.act fun w h => h.call rfl (s.conn _ h.2.2)) ?_
  refine .seq (Q := fun w => At K (opening.take 5) w ∧ api.isConnected w.dev = true) (.cond (W := At K (opening.take 5))
    (fun _ h => h.rests (pre 5)) (fun _ h _ => h) (fun _ h hc => ⟨h, hc⟩) fun _ _ h r => h.others s r) ?_
  refine .seq (Q := fun w => At K opening w ∧ J w) (.act fun w h => ?_) ?_
  · rw [h.2]
    have q := s.write w h.1.2.2 h.2
    exact ⟨h.1.call rfl q.1, q.2⟩
  refine .seq (Q := InLoop K L) (.cond (W := fun w => (At K opening w ∧ J w) ∧ api.bytesAvailable w.dev = 0)
    (fun _ h => h.1.1.rests (List.prefix_refl _)) (fun w h hc => ⟨h, by simpa [ask] using hc⟩) (fun w h hc => ?_)
    fun u v h r => ⟨h.1.1.others s r, s.wait _ _ h.1.1.2.2 h.1.2 h.2 r⟩) ?_
  · show InLoop K L w
    exact ⟨⟨[], by simpa using h.1.1⟩, by rw [h.1.1]; exact h.1.2.1, h.1.2.2,
      s.enter _ h.1.2.2 h.2 (by simpa [ask] using hc)⟩
  refine .seq (Q := fun w => InLoop K L w ∧ api.isConnected w.dev = false)
    (.loop (A := fun w => InLoop K L w ∧ api.isConnected w.dev = true) (B := InLoop K L) (fun _ h hc => ⟨h, hc⟩) (fun _ h hc => ⟨h, hc⟩) ?_ fun _ h => h) ?_
  · refine .ite (A := fun w => (InLoop K L w ∧ api.isConnected w.dev = true) ∧ api.bytesAvailable w.dev ≠ 0)
      (B := fun w => InLoop K L w) (fun w h hc => ⟨h, by simpa [ask] using hc⟩) (fun w h hc => h.1) (.act ?_) ?_
    · rintro w ⟨⟨⟨⟨ps, h1⟩, h2, h3, h4⟩, h5⟩, h6⟩
      obtain ⟨k, l⟩ := s.read w h3 h4 h5 h6
      refine ⟨⟨ps ++ [(api.read w.dev 40).2], by simp [readSome, h1]⟩, ?_, k, l⟩
      simp only [readSome]
      rw [answer_append, ← h2]
      simp [answer]
    · refine .cond (W := fun w => (InLoop K L w ∧ api.isConnected w.dev = true) ∧ api.bytesAvailable w.dev = 0) (fun _ h => h.1.1.rests s)
        (fun w h hc => ?_) (fun _ h _ => h) ?_
      · simp [ask] at hc
        exact ⟨⟨h, hc.2⟩, hc.1⟩
      · rintro u v ⟨⟨⟨⟨ps, h1⟩, h2, h3, h4⟩, h5⟩, h6⟩ r
        obtain ⟨r1, r2⟩ := s.others _ _ r
        exact ⟨⟨ps, r1.trans h1⟩, by rw [r2, h2, r1], s.keep _ _ h3 r, s.rest _ _ h3 h4 h5 h6 r⟩
  refine .seq (Q := Late K A F []) (.act ?_) ?_
  · rintro w ⟨⟨⟨ps, h1⟩, h2, h3, h4⟩, h5⟩
    rw [h5]
    refine ⟨s.entered _ h4, ⟨ps, _, s.leave _ h3 h4 h5, ?_⟩, ?_, s.disc _ _ h3⟩
    · simp only [call]; rw [h1]
    · simp only [call]; rw [answer_append, h2]; simp [answer]
  refine .seq (Q := Late K A F []) (.cond (W := Late K A F []) (fun _ h => h.rests (by simp)) (fun _ h _ => h) (fun _ h _ => h)
    fun _ _ h r => h.others s r) (.act ?_)
  rintro w ⟨ha, ⟨ps, n, h1, h2⟩, h3, h4⟩
  refine ⟨ha, ⟨ps, n, h1, by simp [call, h2]⟩, ?_, s.done _ h4⟩
  simp only [call]; rw [answer_append, h3]; simp [answer]

theorem client_rests (s : Side api R K J L A F) {t : Task} (ht : t.timeoutRunning = false) {xs : List (Nat × (World D → World D))} {d : D}
    (hx : ∀ x ∈ xs, ∀ w, R w (x.2 w)) (hk : K (start d)) {st : Duff.St (World D)}
    (hc : Duff.Calls (text api) xs (Duff.init 0 t (start d)) st) : Rests K A F st.user := by
  obtain ⟨h, h1, h2, _⟩ := (Props.Thread.C83_thread (body_good api) ht xs (start d) _ _).1 ⟨st, hc, rfl, rfl⟩
  rw [← h2]
  exact turns_sound (client_tri s) (fun _ _ h r => h.others s r) (fun _ h => h.rests (List.prefix_refl _)) h1 hx
    ⟨.early ⟨opening, rfl⟩, rfl, hk⟩
    fun v r => ⟨(s.others _ _ r).1, (s.others _ _ r).2, s.keep _ _ hk r⟩

theorem Shape.orderly {l : List Call} (h : Shape A F l) : Orderly l := by
  cases h with
  | early h => exact ⟨[], 0, h.trans ⟨[.disconnect false 0, .done], by simp⟩⟩
  | loop _ ps => exact ⟨ps, 0, ⟨[.disconnect false 0, .done], by simp⟩⟩
  | late _ ps n _ he => exact ⟨ps, n, by rw [List.prefix_append_right_inj]; exact List.cons_prefix_cons.2 ⟨rfl, he⟩⟩

theorem Shape.disconnect {l : List Call} (h : Shape A F l) {c : Bool} {n : Nat} (hm : .disconnect c n ∈ l) : A ∧ c = false ∧ F n := by
  cases h with
  | early h =>
    have := h.subset hm
    simp [opening] at this
  | loop _ ps => simp [opening] at hm
  | late a ps m hF he =>
    simp only [opening, List.mem_append, List.mem_cons, List.mem_map, reduceCtorEq, List.not_mem_nil, Call.disconnect.injEq, and_false,
      exists_false, or_false, false_or] at hm
    rcases hm with ⟨h1, h2⟩ | hm
    · exact ⟨a, h1, h2 ▸ hF⟩
    · have := he.subset hm
      simp at this

end Verif.Client
