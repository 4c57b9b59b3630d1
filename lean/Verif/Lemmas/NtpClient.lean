import Verif.Lemmas.Counted
import Verif.Spec.NtpClient

/-!
# The NTP examples as threads
-/

namespace Verif.NtpClient

open Duff (Test Wait Prog)
open Spec.Threads Spec.NtpClient
open Spec.Ntp (request overlay Others)
open Verif.Ntp

variable {D : Type}

theorem body_good (b : Bool) (api : Client.Api D) : Good 0 5 (body b api) := by
  cases b <;>
    exact ⟨by simp [body, detection, session, labels], by simp [body, detection, session, labels], by simp [body, detection, session, Closed]⟩

/-- The calls are `l`, nothing was printed. -/
def At (l : List Call) (w : World D) : Prop := w.log = l ∧ w.printed = none

/-- The same after the request. -/
def Asked (b : Bool) (w : World D) : Prop := At (asked b) w ∧ w.packet = request

/-- After the answer. -/
def Told (b : Bool) (e : List Call) (w : World D) : Prop :=
  ∃ n bs, n ≠ 0 ∧ bs.length = min 48 n ∧ w.log = asked b ++ .read n bs :: .disconnect :: e ∧ w.printed = some (epoch (overlay bs))

variable {b : Bool} {api : Client.Api D}

theorem At.others {l : List Call} {u v : World D} (h : At l u) (r : Others u v) : At l v := ⟨r.1.trans h.1, r.2.2.1.trans h.2⟩

theorem Asked.others {u v : World D} (h : Asked b u) (r : Others u v) : Asked b v := ⟨h.1.others r, r.2.1.trans h.2⟩

theorem Told.others {e : List Call} {u v : World D} (h : Told b e u) (r : Others u v) : Told b e v := by
  obtain ⟨n, bs, h1, h2, h3, h4⟩ := h
  exact ⟨n, bs, h1, h2, r.1.trans h3, r.2.2.1.trans h4⟩

theorem At.tells {l : List Call} (hl : l <+: asked b) {w : World D} (h : At l w) : Tells b w := .inl ⟨by rw [h.1]; exact hl, h.2⟩

theorem Told.tells {e : List Call} (he : e <+: [.done true]) {w : World D} (h : Told b e w) : Tells b w := by
  obtain ⟨n, bs, h1, h2, h3, h4⟩ := h
  exact .inr ⟨n, bs, e, h1, h2, he, h3, h4⟩

/-- The calls of the detection. -/
def found (b : Bool) : List Call := if b then [.startDetection, .getDetectedModem true] else []

theorem found_prefix {l : List Call} (h : l <+: [.configure, .setHostPort, .connect, .write true request]) : found b ++ l <+: asked b :=
  (List.prefix_append_right_inj _).2 h

/-- Before the request; the packet is all zero. -/
def Opened (b : Bool) (w : World D) : Prop := At (found b ++ [.configure, .setHostPort, .connect]) w ∧ w.packet = List.replicate 48 0

theorem Opened.others {u v : World D} (h : Opened b u) (r : Others u v) : Opened b v := ⟨h.1.others r, r.2.1.trans h.2⟩

theorem Opened.tells {w : World D} (h : Opened b w) : Tells b w := h.1.tells (found_prefix ⟨[.write true request], rfl⟩)

theorem session_tri (hr : Reads api) : Tri (Tells b) Others (At (D := D) (found b)) (session api) (Told b [.done true]) := by
  refine .seq (Q := Opened b) (.act fun w h => ⟨⟨?_, h.2⟩, rfl⟩) ?_
  · simp [opens, call, clear, h.1]
  refine .seq (Q := fun w => Opened b w ∧ api.isConnected w.dev = true) (.cond (W := Opened b) (fun _ h => h.tells) (fun _ h _ => h)
    (fun _ h hc => ⟨h, hc⟩) fun _ _ h r => h.others r) ?_
  refine .seq (Q := Asked b) (.act fun w h => ⟨⟨?_, h.1.1.2⟩, ?_⟩) ?_
  · have e : asked b = found b ++ [.configure, .setHostPort, .connect] ++ [.write true request] := by simp [asked, found]
    show w.log ++ [.write (api.isConnected w.dev) ([0x1b, 0, 0, 0] ++ w.packet.drop 4)] = _
    rw [e, h.1.1.1, h.2, h.1.2]
    rfl
  · show [0x1b, 0, 0, 0] ++ w.packet.drop 4 = _
    rw [h.1.2]
    rfl
  refine .seq (Q := fun w => Asked b w ∧ api.bytesAvailable w.dev ≠ 0) (.cond (W := Asked b) (fun _ h => h.1.tells (List.prefix_refl _))
    (fun _ h _ => h) (fun _ h hc => ⟨h, by simpa [when] using hc⟩) fun _ _ h r => h.others r) ?_
  refine .seq (Q := Told b []) (.act fun w h => ⟨_, (api.read w.dev 48).2, h.2, hr _ _, ?_, ?_⟩) ?_
  · show (w.log ++ [.read (api.bytesAvailable w.dev) (api.read w.dev 48).2]) ++ [.disconnect] = _
    rw [h.1.1.1, List.append_assoc]
    rfl
  · show some (epoch ((api.read w.dev 48).2 ++ w.packet.drop (api.read w.dev 48).2.length)) = _
    rw [h.1.2]
    rfl
  refine .seq (Q := fun w => Told b [] w ∧ api.isIdle w.dev = true) (.cond (W := Told b []) (fun _ h => h.tells ⟨_, rfl⟩) (fun _ h _ => h)
    (fun _ h hc => ⟨h, hc⟩) fun _ _ h r => h.others r) (.act ?_)
  rintro w ⟨⟨n, bs, h1, h2, h3, h4⟩, hi⟩
  refine ⟨n, bs, h1, h2, ?_, h4⟩
  show w.log ++ [.done (api.isIdle w.dev)] = _
  rw [h3, hi, List.append_assoc]
  rfl

theorem body_tri (hr : Reads api) : Tri (Tells b) Others (At (D := D) []) (body b api) (Told b [.done true]) := by
  refine .seq (Q := At (found b)) ?_ (session_tri hr)
  cases b with
  | false => exact .act fun w hw => hw
  | true =>
    refine .seq (Q := At [.startDetection]) (.act fun w hw => ⟨by simp [call, hw.1], hw.2⟩) ?_
    refine .seq (Q := fun w => At [.startDetection] w ∧ api.modemDetected w.dev = true) (.cond (W := At [.startDetection])
      (fun _ hw => hw.tells (b := true) ⟨[.getDetectedModem true, .configure, .setHostPort, .connect, .write true request], rfl⟩) (fun _ h _ => h)
      (fun _ h hc => ⟨h, hc⟩) fun _ _ h r => h.others r) (.act fun w hw => ⟨?_, hw.1.2⟩)
    simp [call, hw.1.1, hw.2, found]

theorem tells (hr : Reads api) {t : Task} (ht : t.timeoutRunning = false) {xs : List (Nat × (World D → World D))} {d : D} {junk : List Byte}
    (hx : ∀ x ∈ xs, ∀ w, Others w (x.2 w)) {s : Duff.St (World D)} (hc : Duff.Calls (text b api) xs (Duff.init 0 t (start d junk)) s) :
    Tells b s.user := by
  obtain ⟨h, h1, h2, _⟩ := (Props.Thread.C83_thread (body_good b api) ht xs (start d junk) _ _).1 ⟨s, hc, rfl, rfl⟩
  rw [← h2]
  have h0 : At [] (start d junk) := ⟨rfl, rfl⟩
  exact turns_sound (body_tri hr) (fun _ _ h r => h.others r) (fun _ h => h.tells (List.prefix_refl _)) h1 hx
    (h0.tells List.nil_prefix) fun v r => h0.others r

theorem text_finitely (b : Bool) (api : Client.Api D) : Duff.Finitely (text b api) := by
  refine .seq (.label 0) (.seq (.seq ?_ ?_) (.setEntry 5))
  · cases b
    · exact .act _
    · exact .seq (.act _) (.seq (Counted.cond_finitely _ _) (.act _))
  · exact .seq (.act _) (.seq (Counted.cond_finitely _ _) (.seq (.act _) (.seq (Counted.cond_finitely _ _) (.seq (.act _)
      (.seq (Counted.cond_finitely _ _) (.act _))))))

/-! ## The time -/

theorem getD_overlay (bs : List Byte) (i : Nat) : (overlay bs).getD i 0 = if i < bs.length then bs.getD i 0 else request.getD i 0 := by
  unfold overlay
  split
  · rename_i h
    simp only [List.getD_eq_getElem?_getD, List.getElem?_append_left h]
  · rename_i h
    have h : bs.length ≤ i := by omega
    simp only [List.getD_eq_getElem?_getD, List.getElem?_append_right h, List.getElem?_drop]
    rw [show bs.length + (i - bs.length) = i by omega]

theorem getLsbD_word (a b c d : BitVec 8) (i : Nat) : (word a b c d).getLsbD i =
    if i < 8 then a.getLsbD i else if i < 16 then b.getLsbD (i - 8) else if i < 24 then c.getLsbD (i - 16) else d.getLsbD (i - 24) := by
  show ((d ++ c ++ b ++ a : BitVec (8 + 8 + 8 + 8))).getLsbD i = _
  rw [BitVec.getLsbD_append, BitVec.getLsbD_append, BitVec.getLsbD_append]
  by_cases h1 : i < 8
  · rw [if_pos h1, if_pos h1]
  · rw [if_neg h1, if_neg h1]
    by_cases h2 : i < 16
    · rw [if_pos h2, if_pos (by omega)]
    · rw [if_neg h2, if_neg (by omega)]
      by_cases h3 : i < 24
      · rw [if_pos h3, if_pos (by omega), Nat.sub_sub]
      · rw [if_neg h3, if_neg (by omega), Nat.sub_sub, Nat.sub_sub]

theorem swap_word (a b c d : BitVec 8) : byteSwap (word a b c d) = word d c b a := by
  apply BitVec.eq_of_getLsbD_eq
  intro i hi
  match i, hi with
  | 0, _ | 1, _ | 2, _ | 3, _ | 4, _ | 5, _ | 6, _ | 7, _ | 8, _ | 9, _ | 10, _ | 11, _
  | 12, _ | 13, _ | 14, _ | 15, _ | 16, _ | 17, _ | 18, _ | 19, _ | 20, _ | 21, _ | 22, _
  | 23, _ | 24, _ | 25, _ | 26, _ | 27, _ | 28, _ | 29, _ | 30, _ | 31, _ =>
    simp [byteSwap, BitVec.getLsbD_or, BitVec.getLsbD_and, BitVec.getLsbD_shiftLeft, BitVec.getLsbD_ushiftRight, ← BitVec.getLsbD_eq_getElem, getLsbD_word]
  | n + 32, h => omega

theorem toNat_word (a b c d : BitVec 8) : (word a b c d).toNat = d.toNat * 16777216 + c.toNat * 65536 + b.toNat * 256 + a.toNat := by
  show ((d ++ c ++ b ++ a : BitVec (8 + 8 + 8 + 8))).toNat = _
  rw [BitVec.toNat_append, BitVec.toNat_append, BitVec.toNat_append, ← Nat.shiftLeft_add_eq_or_of_lt a.isLt, ← Nat.shiftLeft_add_eq_or_of_lt b.isLt,
    ← Nat.shiftLeft_add_eq_or_of_lt c.isLt]
  simp only [Nat.shiftLeft_eq]
  omega

/-! ## Without an answer -/

/-- Nothing was printed, and the calls do not go beyond the request. -/
def Quiet (b : Bool) (w : World D) : Prop := w.log <+: asked b ∧ w.printed = none

theorem mute_tri (hm : ∀ d, api.bytesAvailable d = 0) : Tri (Quiet b) Others (At (D := D) []) (body b api) (fun _ => False) := by
  refine .seq (Q := At (found b)) ?_ ?_
  · cases b with
    | false => exact .act fun w hw => hw
    | true =>
      refine .seq (Q := At [.startDetection]) (.act fun w hw => ⟨by simp [call, hw.1], hw.2⟩) ?_
      refine .seq (Q := fun w => At [.startDetection] w ∧ api.modemDetected w.dev = true) (.cond (W := At [.startDetection])
        (fun _ hw => ⟨by rw [hw.1]; exact ⟨[.getDetectedModem true, .configure, .setHostPort, .connect, .write true request], rfl⟩, hw.2⟩)
        (fun _ h _ => h) (fun _ h hc => ⟨h, hc⟩) fun _ _ h r => h.others r) (.act fun w hw => ⟨?_, hw.1.2⟩)
      simp [call, hw.1.1, hw.2, found]
  refine .seq (Q := Opened b) (.act fun w h => ⟨⟨?_, h.2⟩, rfl⟩) ?_
  · simp [opens, call, clear, h.1]
  refine .seq (Q := fun w => Opened b w ∧ api.isConnected w.dev = true) (.cond (W := Opened b)
    (fun _ h => ⟨by rw [h.1.1]; exact found_prefix ⟨[.write true request], rfl⟩, h.1.2⟩) (fun _ h _ => h)
    (fun _ h hc => ⟨h, hc⟩) fun _ _ h r => h.others r) ?_
  refine .seq (Q := At (asked b)) (.act fun w h => ⟨?_, h.1.1.2⟩) ?_
  · have e : asked b = found b ++ [.configure, .setHostPort, .connect] ++ [.write true request] := by simp [asked, found]
    show w.log ++ [.write (api.isConnected w.dev) ([0x1b, 0, 0, 0] ++ w.packet.drop 4)] = _
    rw [e, h.1.1.1, h.2, h.1.2]
    rfl
  refine .seq (Q := fun _ => False) (.cond (W := At (asked b)) (fun _ h => ⟨by rw [h.1]; exact List.prefix_refl _, h.2⟩)
    (fun _ h _ => h) (fun _ h hc => by simp [when, hm] at hc) fun _ _ h r => h.others r) ?_
  refine .seq (Q := fun _ => False) (.act fun _ h => h.elim) ?_
  exact .seq (Q := fun _ => False) (.cond (W := fun _ => False) (fun _ h => h.elim) (fun _ h _ => h) (fun _ h _ => h)
    fun _ _ h _ => h) (.act fun _ h => h)

theorem mute (hm : ∀ d, api.bytesAvailable d = 0) {t : Task} (ht : t.timeoutRunning = false) {xs : List (Nat × (World D → World D))} {d : D}
    {junk : List Byte} (hx : ∀ x ∈ xs, ∀ w, Others w (x.2 w)) {s : Duff.St (World D)}
    (hc : Duff.Calls (text b api) xs (Duff.init 0 t (start d junk)) s) : Quiet b s.user := by
  obtain ⟨h, h1, h2, _⟩ := (Props.Thread.C83_thread (body_good b api) ht xs (start d junk) _ _).1 ⟨s, hc, rfl, rfl⟩
  rw [← h2]
  have h0 : At [] (start d junk) := ⟨rfl, rfl⟩
  exact turns_sound (mute_tri hm) (fun _ _ h _ => h) (fun _ h => h.elim) h1 hx
    ⟨List.nil_prefix, rfl⟩ fun v r => h0.others r

end Verif.NtpClient
