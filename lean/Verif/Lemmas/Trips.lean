import Verif.Lemmas.Chat7x00
import Verif.Lemmas.Chat800
import Verif.Lemmas.ChatEsp
import Verif.Lemmas.ChatCC

/-! Sequences of visits. -/

namespace Verif

open Dev Spec

theorem Dev.Told.all {T : List (List Byte)} {tr : List Ev} {W G : List Byte} (h : Told [] T W G tr) : utter tr = T ∧ Whole tr := by
  obtain ⟨new, rfl, h1, h2, _⟩ := h
  exact ⟨h1, h2⟩

theorem Dev.isConnected_of {S R X : Type} {d : Dev S R X} (h : d.cs = .connected) : d.isConnected = true := by
  unfold Dev.isConnected; rw [h]; rfl

theorem Dev.isIdle_of {S R X : Type} {d : Dev S R X} (h : d.cs = .notConnected) : d.isIdle = true := by
  unfold Dev.isIdle; rw [h]; rfl

namespace Sim7x00

theorem trips_ok (p : Platform) {n : Nat} (ts : List (Trip (List Byte))) {c : Conf} {apn addr : Option (List Byte)} {t0 : List Ev} {T : List (List Byte)} {d : D}
    (hr : 60 ≤ c.rx) (ht : 20 ≤ c.tx) (hn : c.tx ≤ n) (hI : c.Idle) (hm : c.part = []) (h : Down c apn addr t0 T d)
    (hts : ∀ t ∈ ts, Fits7x00 c.tx t.access t.peer ∧ t.visit.Ok (open7x00 t.access t.peer) close7x00 stay7x00 (fun _ => True)) :
    ∃ c' apn addr, (∀ r, c'.to r = c.to r) ∧ c'.rx = c.rx ∧ c'.tx = c.tx ∧ c'.Idle ∧ c'.part = [] ∧ Down c' apn addr t0 (T ++ ts.flatMap fun t => visit7x00 t.access t.peer)
      (exec (step p) d (trips setup7x00 n ts)) := by
  induction ts generalizing c apn addr T d with
  | nil => exact ⟨_, _, _, fun _ => rfl, rfl, rfl, hI, hm, by rw [List.flatMap_nil, List.append_nil]; exact h⟩
  | cons t ts ih =>
    obtain ⟨hf, hv⟩ := hts t List.mem_cons_self
    have h1 := visit_ok p hr ht hn hI hm hf.peer hf.texts hf.host h hv
    obtain ⟨c2, a2, b2, e0, e1, e2, e3, e4, h2⟩ := ih (c := c.to t.peer) hr ht hn hI hm h1 fun u hu => hts u (List.mem_cons_of_mem _ hu)
    refine ⟨c2, a2, b2, fun r => e0 r, e1, e2, e3, e4, ?_⟩
    rw [List.flatMap_cons, ← List.append_assoc]
    show Down _ _ _ _ _ (exec (step p) d ((_ ++ _) ++ trips setup7x00 n ts))
    rw [exec_append]
    exact h2

theorem Stage.seen {c : Conf} {a : List Byte} {r : Peer} {t0 : List Ev} {T : List (List Byte)} {d : D} :
    ∀ {k : Nat}, k ≤ 9 → Stage c a r t0 T k d →
      Told t0 (T ++ says ((open7x00 a r).take k)) c.took c.gave d.trace ∧ d.isIdle = false ∧ d.isConnected = decide (k = 9)
  | 0, _, h => ⟨h.told, by unfold Dev.isIdle; rw [h.cs]; decide, by unfold Dev.isConnected; rw [h.cs]; decide⟩
  | 1, _, h => ⟨h.told, by unfold Dev.isIdle; rw [h.cs]; decide, by unfold Dev.isConnected; rw [h.cs]; decide⟩
  | 2, _, h => ⟨h.told, by unfold Dev.isIdle; rw [h.cs]; decide, by unfold Dev.isConnected; rw [h.cs]; decide⟩
  | 3, _, h => ⟨h.told, by unfold Dev.isIdle; rw [h.cs]; decide, by unfold Dev.isConnected; rw [h.cs]; decide⟩
  | 4, _, h => ⟨h.told, by unfold Dev.isIdle; rw [h.cs]; decide, by unfold Dev.isConnected; rw [h.cs]; decide⟩
  | 5, _, h => ⟨h.told, by unfold Dev.isIdle; rw [h.cs]; decide, by unfold Dev.isConnected; rw [h.cs]; decide⟩
  | 6, _, h => ⟨h.told, by unfold Dev.isIdle; rw [h.cs]; decide, by unfold Dev.isConnected; rw [h.cs]; decide⟩
  | 7, _, h => ⟨h.told, by unfold Dev.isIdle; rw [h.cs]; decide, by unfold Dev.isConnected; rw [h.cs]; decide⟩
  | 8, _, h => ⟨h.told, by unfold Dev.isIdle; rw [h.cs]; decide, by unfold Dev.isConnected; rw [h.cs]; decide⟩
  | 9, _, h => ⟨h.1.told, by unfold Dev.isIdle; rw [h.1.cs]; decide, by unfold Dev.isConnected; rw [h.1.cs]; decide⟩
  | k + 10, hk, _ => by omega

end Sim7x00

namespace Sim800

theorem trips_ok (p : Platform) {n : Nat} (ts : List (Trip (List Byte))) {c : Conf} {apn addr : Option (List Byte)} {t0 : List Ev} {T : List (List Byte)} {d : D}
    (hr : 60 ≤ c.rx) (ht : 20 ≤ c.tx) (hn : c.tx ≤ n) (hI : c.Idle) (hm : c.part = []) (h : Down c apn addr t0 T d)
    (hts : ∀ t ∈ ts, Fits800 c.tx t.access t.peer ∧ t.visit.Ok (open800 t.access t.peer) close800 stay800 (Clear errors800)) :
    ∃ c' apn addr, (∀ r, c'.to r = c.to r) ∧ c'.rx = c.rx ∧ c'.tx = c.tx ∧ c'.Idle ∧ c'.part = [] ∧ Down c' apn addr t0 (T ++ ts.flatMap fun t => visit800 t.access t.peer)
      (exec (step p) d (trips setup7x00 n ts)) := by
  induction ts generalizing c apn addr T d with
  | nil => exact ⟨_, _, _, fun _ => rfl, rfl, rfl, hI, hm, by rw [List.flatMap_nil, List.append_nil]; exact h⟩
  | cons t ts ih =>
    obtain ⟨hf, hv⟩ := hts t List.mem_cons_self
    have h1 := visit_ok p hr ht hn hI hm hf.peer hf.name hf.texts hf.host h hv
    obtain ⟨c2, a2, b2, e0, e1, e2, e3, e4, h2⟩ := ih (c := c.to t.peer) hr ht hn hI hm h1 fun u hu => hts u (List.mem_cons_of_mem _ hu)
    refine ⟨c2, a2, b2, fun r => e0 r, e1, e2, e3, e4, ?_⟩
    rw [List.flatMap_cons, ← List.append_assoc]
    show Down _ _ _ _ _ (exec (step p) d ((_ ++ _) ++ trips setup7x00 n ts))
    rw [exec_append]
    exact h2

theorem Stage.seen {c : Conf} {a : List Byte} {r : Peer} {t0 : List Ev} {T : List (List Byte)} {d : D} :
    ∀ {k : Nat}, k ≤ 9 → Stage c a r t0 T k d →
      Told t0 (T ++ says ((open800 a r).take k)) c.took c.gave d.trace ∧ d.isIdle = false ∧ d.isConnected = decide (k = 9)
  | 0, _, h => ⟨h.told, by unfold Dev.isIdle; rw [h.cs]; decide, by unfold Dev.isConnected; rw [h.cs]; decide⟩
  | 1, _, h => ⟨h.told, by unfold Dev.isIdle; rw [h.cs]; decide, by unfold Dev.isConnected; rw [h.cs]; decide⟩
  | 2, _, h => ⟨h.told, by unfold Dev.isIdle; rw [h.cs]; decide, by unfold Dev.isConnected; rw [h.cs]; decide⟩
  | 3, _, h => ⟨h.told, by unfold Dev.isIdle; rw [h.cs]; decide, by unfold Dev.isConnected; rw [h.cs]; decide⟩
  | 4, _, h => ⟨h.told, by unfold Dev.isIdle; rw [h.cs]; decide, by unfold Dev.isConnected; rw [h.cs]; decide⟩
  | 5, _, h => ⟨h.told, by unfold Dev.isIdle; rw [h.cs]; decide, by unfold Dev.isConnected; rw [h.cs]; decide⟩
  | 6, _, h => ⟨h.told, by unfold Dev.isIdle; rw [h.cs]; decide, by unfold Dev.isConnected; rw [h.cs]; decide⟩
  | 7, _, h => ⟨h.told, by unfold Dev.isIdle; rw [h.cs]; decide, by unfold Dev.isConnected; rw [h.cs]; decide⟩
  | 8, _, h => ⟨h.told, by unfold Dev.isIdle; rw [h.cs]; decide, by unfold Dev.isConnected; rw [h.cs]; decide⟩
  | 9, _, h => ⟨h.1.told, by unfold Dev.isIdle; rw [h.1.cs]; decide, by unfold Dev.isConnected; rw [h.1.cs]; decide⟩
  | k + 10, hk, _ => by omega

end Sim800

namespace Espressif

theorem trips_ok (p : Platform) {n : Nat} (ts : List (Trip Wifi)) {c : Conf} {w : Option Wifi} {t0 : List Ev} {T : List (List Byte)} {d : D}
    (hr : 60 ≤ c.rx) (ht : 20 ≤ c.tx) (hn : c.tx ≤ n) (hI : c.Idle) (hm : c.part = []) (h : Down p c w t0 T d)
    (hts : ∀ t ∈ ts, FitsEsp c.tx t.access t.peer ∧ t.visit.Ok (openEsp t.access t.peer) (closeEsp t.peer) (stayEsp t.peer) (restEsp t.peer)) :
    ∃ c' w, (∀ r, c'.to r = c.to r) ∧ c'.rx = c.rx ∧ c'.tx = c.tx ∧ c'.Idle ∧ c'.part = [] ∧ Down p c' w t0 (T ++ ts.flatMap fun t => visitEsp t.access t.peer)
      (exec (step p) d (trips setupEsp n ts)) := by
  induction ts generalizing c w T d with
  | nil => exact ⟨_, _, fun _ => rfl, rfl, rfl, hI, hm, by rw [List.flatMap_nil, List.append_nil]; exact h⟩
  | cons t ts ih =>
    obtain ⟨hf, hv⟩ := hts t List.mem_cons_self
    have h1 := visit_ok p hr ht hn hI hm hf.peer hf.wifi hf.texts h hv
    obtain ⟨c2, a2, e0, e1, e2, e3, e4, h2⟩ := ih (c := c.to t.peer) hr ht hn hI hm h1 fun u hu => hts u (List.mem_cons_of_mem _ hu)
    refine ⟨c2, a2, fun r => e0 r, e1, e2, e3, e4, ?_⟩
    rw [List.flatMap_cons, ← List.append_assoc]
    show Down _ _ _ _ _ (exec (step p) d ((_ ++ _) ++ trips setupEsp n ts))
    rw [exec_append]
    exact h2

theorem Stage.seen {p : Platform} {c : Conf} {a : Wifi} {r : Peer} {t0 : List Ev} {T : List (List Byte)} {d : D} :
    ∀ {k : Nat}, k ≤ 7 → Stage p c a r t0 T k d →
      Told t0 (T ++ says ((openEsp a r).take k)) c.took c.gave d.trace ∧ d.isIdle = false ∧ d.isConnected = decide (k = 7)
  | 0, _, h => ⟨h.told, by unfold Dev.isIdle; rw [h.cs]; decide, by unfold Dev.isConnected; rw [h.cs]; decide⟩
  | 1, _, h => ⟨h.told, by unfold Dev.isIdle; rw [h.cs]; decide, by unfold Dev.isConnected; rw [h.cs]; decide⟩
  | 2, _, h => ⟨h.told, by unfold Dev.isIdle; rw [h.cs]; decide, by unfold Dev.isConnected; rw [h.cs]; decide⟩
  | 3, _, h => ⟨h.told, by unfold Dev.isIdle; rw [h.cs]; decide, by unfold Dev.isConnected; rw [h.cs]; decide⟩
  | 4, _, h => ⟨h.told, by unfold Dev.isIdle; rw [h.cs]; decide, by unfold Dev.isConnected; rw [h.cs]; decide⟩
  | 5, _, h => ⟨h.told, by unfold Dev.isIdle; rw [h.cs]; decide, by unfold Dev.isConnected; rw [h.cs]; decide⟩
  | 6, _, h => ⟨h.told, by unfold Dev.isIdle; rw [h.cs]; decide, by unfold Dev.isConnected; rw [h.cs]; decide⟩
  | 7, _, h => ⟨h.1.told, by unfold Dev.isIdle; rw [h.1.cs]; decide, by unfold Dev.isConnected; rw [h.1.cs]; decide⟩
  | k + 8, hk, _ => by omega

end Espressif

namespace CC1352P7

theorem trips_ok (p : Platform) {n : Nat} (ts : List (Trip Unit)) {c : Conf}  {t0 : List Ev} {T : List (List Byte)} {d : D}
    (hr : 60 ≤ c.rx) (ht : 20 ≤ c.tx) (hn : c.tx ≤ n) (hI : c.Idle) (hm : c.part = []) (h : Down p c t0 T d)
    (hts : ∀ t ∈ ts, FitsCC c.tx t.peer ∧ t.visit.Ok (openCC t.peer) closeCC stayCC (Clear [b!"ERROR"])) :
    ∃ c', (∀ r, c'.to r = c.to r) ∧ c'.rx = c.rx ∧ c'.tx = c.tx ∧ c'.Idle ∧ c'.part = [] ∧ Down p c' t0 (T ++ ts.flatMap fun t => (fun _ => visitCC) t.access t.peer)
      (exec (step p) d (trips (fun _ => setupCC) n ts)) := by
  induction ts generalizing c T d with
  | nil => exact ⟨_, fun _ => rfl, rfl, rfl, hI, hm, by rw [List.flatMap_nil, List.append_nil]; exact h⟩
  | cons t ts ih =>
    obtain ⟨hf, hv⟩ := hts t List.mem_cons_self
    have h1 := visit_ok p hr ht hn hI hm hf.peer hf.texts h hv
    obtain ⟨c2, e0, e1, e2, e3, e4, h2⟩ := ih (c := c.to t.peer) hr ht hn hI hm h1 fun u hu => hts u (List.mem_cons_of_mem _ hu)
    refine ⟨c2, fun r => e0 r, e1, e2, e3, e4, ?_⟩
    rw [List.flatMap_cons, ← List.append_assoc]
    show Down _ _ _ _ (exec (step p) d ((_ ++ _) ++ trips (fun _ => setupCC) n ts))
    rw [exec_append]
    exact h2

theorem Stage.seen {p : Platform} {c : Conf} {r : Peer} {t0 : List Ev} {T : List (List Byte)} {d : D} :
    ∀ {k : Nat}, k ≤ 2 → Stage p c r t0 T k d →
      Told t0 (T ++ says ((openCC r).take k)) c.took c.gave d.trace ∧ d.isIdle = false ∧ d.isConnected = decide (k = 2)
  | 0, _, h => ⟨h.told, by unfold Dev.isIdle; rw [h.cs]; decide, by unfold Dev.isConnected; rw [h.cs]; decide⟩
  | 1, _, h => ⟨h.told, by unfold Dev.isIdle; rw [h.cs]; decide, by unfold Dev.isConnected; rw [h.cs]; decide⟩
  | 2, _, h => ⟨h.1.told, by unfold Dev.isIdle; rw [h.1.cs]; decide, by unfold Dev.isConnected; rw [h.1.cs]; decide⟩
  | k + 3, hk, _ => by omega

end CC1352P7

end Verif
