import Verif.Lemmas.Asking7x00
import Verif.Lemmas.Asking800
import Verif.Lemmas.AskingEsp
import Verif.Lemmas.AskingCC

/-! Visits with questions before and during them. -/

namespace Verif

open Dev Spec

namespace Sim7x00

/-- The application gets no value. -/
theorem pending {on : Bool} {q : SimQ} {c : Conf} {t0 : List Ev} {T : List (List Byte)} {I : Bool → Int → SimExt → Prop} {d : D}
    (h : Holds c t0 T (asking on q) I d) : q.Pending d := by
  cases q with
  | signal m => simpa [SimQ.Pending, Dev.getRSSI, int16Max] using h.1.ask
  | ident t s => simp [SimQ.Pending, SimDev.getIDString, h.1.wait]

/-- A tour. -/
theorem tour_ok (p : Platform) {n : Nat} {t : Tour (List Byte) SimQ} {c : Conf} {apn addr : Option (List Byte)} {t0 : List Ev} {T : List (List Byte)} {d : D}
    (hr : 60 ≤ c.rx) (ht : 20 ≤ c.tx) (hn : c.tx ≤ n) (hI : c.Idle) (hm : c.part = []) (hv : Inv d) (h : Here false c apn addr t0 T d)
    (hts : Tour7x00 c.tx t) :
    ∃ apn' addr', Here false (c.to t.peer) apn' addr' t0 (T ++ t.says hello7x00 bye7x00 (SimQ.say iccidCommand))
      (exec (step p) d (t.ops setup7x00 SimQ.op n)) := by
  obtain ⟨hf, hvi, hb, hd⟩ := hts
  have h1 := inquiry_ok (on := false) (is := t.before) p hr ht hn hI hm hb h
  have v1 := exec_inv (step := step p) (ok := fun _ => True) (I := Inv) (fun d op _ h => step_inv p op h) hv (inquiry SimQ.op n t.before) fun _ _ => trivial
  have h2 := connect_ok p hr ht hn hI hm hf.peer hf.texts hf.host h1.1 t.visit.dial hvi.up hvi.stay
  have l2 := idLen_exec p v1 h1.2 (setup7x00 t.access t.peer ++ (dial t.visit.dial ++ Spec.ops n t.visit.up) ++ hearAll n t.visit.stay)
  have v2 := exec_inv (step := step p) (ok := fun _ => True) (I := Inv) (fun d op _ h => step_inv p op h) v1 (setup7x00 t.access t.peer ++ (dial t.visit.dial ++ Spec.ops n t.visit.up) ++ hearAll n t.visit.stay) fun _ _ => trivial
  have h3 := inquiry_ok (on := true) (is := t.during) (c := c.to t.peer) p hr ht hn hI hm hd ⟨h2, l2⟩
  have v3 := exec_inv (step := step p) (ok := fun _ => True) (I := Inv) (fun d op _ h => step_inv p op h) v2 (inquiry SimQ.op n t.during) fun _ _ => trivial
  have h4 := leave_ok (c := c.to t.peer) p hr ht hn hI hm h3.1 t.visit.hangUp hvi.down hvi.rest
  have l4 := idLen_exec p v3 h3.2 (hangUp t.visit.hangUp ++ Spec.ops n t.visit.down ++ hearAll n t.visit.rest)
  refine ⟨some t.access, some t.peer.addr, ?_, ?_⟩
  · rw [← exec_append, ← exec_append, ← exec_append, ← List.append_assoc, ← List.append_assoc] at h4
    simpa [Tour.says, Tour.ops, enter, depart] using h4
  · rw [← exec_append, ← exec_append, ← exec_append, ← List.append_assoc, ← List.append_assoc] at l4
    exact l4

theorem tours_ok (p : Platform) {n : Nat} (ts : List (Tour (List Byte) SimQ)) {c : Conf} {apn addr : Option (List Byte)} {t0 : List Ev} {T : List (List Byte)} {d : D}
    (hr : 60 ≤ c.rx) (ht : 20 ≤ c.tx) (hn : c.tx ≤ n) (hI : c.Idle) (hm : c.part = []) (hv : Inv d) (h : Here false c apn addr t0 T d)
    (hts : ∀ t ∈ ts, Tour7x00 c.tx t) :
    ∃ c' apn' addr', (∀ r, c'.to r = c.to r) ∧ c'.rx = c.rx ∧ c'.tx = c.tx ∧ c'.Idle ∧ c'.part = [] ∧
      Here false c' apn' addr' t0 (T ++ ts.flatMap (Tour.says hello7x00 bye7x00 (SimQ.say iccidCommand))) (exec (step p) d (tours setup7x00 SimQ.op n ts)) := by
  induction ts generalizing c apn addr T d with
  | nil => exact ⟨_, _, _, fun _ => rfl, rfl, rfl, hI, hm, by rw [List.flatMap_nil, List.append_nil]; exact h⟩
  | cons t ts ih =>
    obtain ⟨a0, a1, h1⟩ := tour_ok p hr ht hn hI hm hv h (hts t List.mem_cons_self)
    have v1 := exec_inv (step := step p) (ok := fun _ => True) (I := Inv) (fun d op _ h => step_inv p op h) hv (t.ops setup7x00 SimQ.op n) fun _ _ => trivial
    obtain ⟨c2, b0, b1, e0, e1, e2, e3, e4, h2⟩ := ih (c := c.to t.peer) hr ht hn hI hm v1 h1 fun u hu => hts u (List.mem_cons_of_mem _ hu)
    refine ⟨c2, b0, b1, fun r => e0 r, e1, e2, e3, e4, ?_⟩
    rw [List.flatMap_cons, ← List.append_assoc]
    show Here _ _ _ _ _ _ (exec (step p) d (_ ++ tours setup7x00 SimQ.op n ts))
    rw [exec_append]
    exact h2

end Sim7x00

namespace Sim800

/-- The application gets no value. -/
theorem pending {on : Bool} {q : SimQ} {c : Conf} {t0 : List Ev} {T : List (List Byte)} {I : Bool → Int → SimExt → Prop} {d : D}
    (h : Holds c t0 T (asking on q) I d) : q.Pending d := by
  cases q with
  | signal m => simpa [SimQ.Pending, Dev.getRSSI, int16Max] using h.1.ask
  | ident t s => simp [SimQ.Pending, SimDev.getIDString, h.1.wait]

/-- A tour. -/
theorem tour_ok (p : Platform) {n : Nat} {t : Tour (List Byte) SimQ} {c : Conf} {apn addr : Option (List Byte)} {t0 : List Ev} {T : List (List Byte)} {d : D}
    (hr : 60 ≤ c.rx) (ht : 20 ≤ c.tx) (hn : c.tx ≤ n) (hI : c.Idle) (hm : c.part = []) (hv : Inv d) (h : Here false c apn addr t0 T d)
    (hts : Tour800 c.tx t) :
    ∃ apn' addr', Here false (c.to t.peer) apn' addr' t0 (T ++ t.says hello800 bye800 (SimQ.say iccidCommand))
      (exec (step p) d (t.ops setup7x00 SimQ.op n)) := by
  obtain ⟨hf, hvi, hb, hd⟩ := hts
  have h1 := inquiry_ok (on := false) (is := t.before) p hr ht hn hI hm hb h
  have v1 := exec_inv (step := step p) (ok := fun _ => True) (I := Inv) (fun d op _ h => step_inv p op h) hv (inquiry SimQ.op n t.before) fun _ _ => trivial
  have h2 := connect_ok p hr ht hn hI hm hf.peer hf.name hf.texts hf.host h1.1 t.visit.dial hvi.up hvi.stay
  have l2 := idLen_exec p v1 h1.2 (setup7x00 t.access t.peer ++ (dial t.visit.dial ++ Spec.ops n t.visit.up) ++ hearAll n t.visit.stay)
  have v2 := exec_inv (step := step p) (ok := fun _ => True) (I := Inv) (fun d op _ h => step_inv p op h) v1 (setup7x00 t.access t.peer ++ (dial t.visit.dial ++ Spec.ops n t.visit.up) ++ hearAll n t.visit.stay) fun _ _ => trivial
  have h3 := inquiry_ok (on := true) (is := t.during) (c := c.to t.peer) p hr ht hn hI hm hd ⟨h2, l2⟩
  have v3 := exec_inv (step := step p) (ok := fun _ => True) (I := Inv) (fun d op _ h => step_inv p op h) v2 (inquiry SimQ.op n t.during) fun _ _ => trivial
  have h4 := leave_ok (c := c.to t.peer) p hr ht hn hI hm h3.1 t.visit.hangUp hvi.down hvi.rest
  have l4 := idLen_exec p v3 h3.2 (hangUp t.visit.hangUp ++ Spec.ops n t.visit.down ++ hearAll n t.visit.rest)
  refine ⟨some t.access, some t.peer.addr, ?_, ?_⟩
  · rw [← exec_append, ← exec_append, ← exec_append, ← List.append_assoc, ← List.append_assoc] at h4
    simpa [Tour.says, Tour.ops, enter, depart] using h4
  · rw [← exec_append, ← exec_append, ← exec_append, ← List.append_assoc, ← List.append_assoc] at l4
    exact l4

theorem tours_ok (p : Platform) {n : Nat} (ts : List (Tour (List Byte) SimQ)) {c : Conf} {apn addr : Option (List Byte)} {t0 : List Ev} {T : List (List Byte)} {d : D}
    (hr : 60 ≤ c.rx) (ht : 20 ≤ c.tx) (hn : c.tx ≤ n) (hI : c.Idle) (hm : c.part = []) (hv : Inv d) (h : Here false c apn addr t0 T d)
    (hts : ∀ t ∈ ts, Tour800 c.tx t) :
    ∃ c' apn' addr', (∀ r, c'.to r = c.to r) ∧ c'.rx = c.rx ∧ c'.tx = c.tx ∧ c'.Idle ∧ c'.part = [] ∧
      Here false c' apn' addr' t0 (T ++ ts.flatMap (Tour.says hello800 bye800 (SimQ.say iccidCommand))) (exec (step p) d (tours setup7x00 SimQ.op n ts)) := by
  induction ts generalizing c apn addr T d with
  | nil => exact ⟨_, _, _, fun _ => rfl, rfl, rfl, hI, hm, by rw [List.flatMap_nil, List.append_nil]; exact h⟩
  | cons t ts ih =>
    obtain ⟨a0, a1, h1⟩ := tour_ok p hr ht hn hI hm hv h (hts t List.mem_cons_self)
    have v1 := exec_inv (step := step p) (ok := fun _ => True) (I := Inv) (fun d op _ h => step_inv p op h) hv (t.ops setup7x00 SimQ.op n) fun _ _ => trivial
    obtain ⟨c2, b0, b1, e0, e1, e2, e3, e4, h2⟩ := ih (c := c.to t.peer) hr ht hn hI hm v1 h1 fun u hu => hts u (List.mem_cons_of_mem _ hu)
    refine ⟨c2, b0, b1, fun r => e0 r, e1, e2, e3, e4, ?_⟩
    rw [List.flatMap_cons, ← List.append_assoc]
    show Here _ _ _ _ _ _ (exec (step p) d (_ ++ tours setup7x00 SimQ.op n ts))
    rw [exec_append]
    exact h2

end Sim800

namespace Espressif

/-- The application gets no value. -/
theorem pending {on : Bool} {q : MacQ} {c : Conf} {t0 : List Ev} {T : List (List Byte)} {I : Bool → Int → EspExt → Prop} {d : D}
    (h : Holds c t0 T (asking on q) I d) : q.PendingEsp d := by
  cases q with
  | signal m => simpa [MacQ.PendingEsp, Dev.getRSSI, int16Max] using h.1.ask
  | none => simpa [MacQ.PendingEsp, Dev.getRSSI, int16Max] using h.1.ask
  | mac s => simp [MacQ.PendingEsp, getMacString, h.1.wait]

/-- A tour. -/
theorem tour_ok (p : Platform) {n : Nat} {t : Tour (Wifi) MacQ} {c : Conf} {w : Option Wifi} {t0 : List Ev} {T : List (List Byte)} {d : D}
    (hr : 60 ≤ c.rx) (ht : 20 ≤ c.tx) (hn : c.tx ≤ n) (hI : c.Idle) (hm : c.part = []) (hv : Inv d) (h : Here false p c w t0 T d)
    (hts : TourEsp p c.tx t) :
    ∃ w', Here false p (c.to t.peer) w' t0 (T ++ t.says helloEsp byeEsp (MacQ.sayEsp))
      (exec (step p) d (t.ops setupEsp MacQ.op n)) := by
  obtain ⟨hf, hvi, hb, hd⟩ := hts
  have h1 := inquiry_ok (on := false) (is := t.before) p hr ht hn hI hm (pl := ((58 : Byte) ∉ ·)) (fun l h => .inr h) hb h
  have v1 := exec_inv (step := step p) (ok := fun _ => True) (I := Inv) (fun d op _ h => step_inv p op h) hv (inquiry MacQ.op n t.before) fun _ _ => trivial
  have h2 := connect_ok p hr ht hn hI hm hf.peer hf.wifi hf.texts h1.1 t.visit.dial hvi.up hvi.stay
  have l2 := macLen_exec p v1 h1.2 (setupEsp t.access t.peer ++ (dial t.visit.dial ++ Spec.ops n t.visit.up) ++ hearAll n t.visit.stay)
  have v2 := exec_inv (step := step p) (ok := fun _ => True) (I := Inv) (fun d op _ h => step_inv p op h) v1 (setupEsp t.access t.peer ++ (dial t.visit.dial ++ Spec.ops n t.visit.up) ++ hearAll n t.visit.stay) fun _ _ => trivial
  have h3 := inquiry_ok (on := true) (is := t.during) (c := c.to t.peer) p hr ht hn hI hm (pl := Spec.plain t.peer.typ) (fun l h => h) hd ⟨h2, l2⟩
  have v3 := exec_inv (step := step p) (ok := fun _ => True) (I := Inv) (fun d op _ h => step_inv p op h) v2 (inquiry MacQ.op n t.during) fun _ _ => trivial
  have h4 := leave_ok (c := c.to t.peer) p hr ht hn hI hm rfl h3.1 t.visit.hangUp hvi.down hvi.rest
  have l4 := macLen_exec p v3 h3.2 (hangUp t.visit.hangUp ++ Spec.ops n t.visit.down ++ hearAll n t.visit.rest)
  refine ⟨some t.access, ?_, ?_⟩
  · rw [← exec_append, ← exec_append, ← exec_append, ← List.append_assoc, ← List.append_assoc] at h4
    simpa [Tour.says, Tour.ops, enter, depart] using h4
  · rw [← exec_append, ← exec_append, ← exec_append, ← List.append_assoc, ← List.append_assoc] at l4
    exact l4

theorem tours_ok (p : Platform) {n : Nat} (ts : List (Tour (Wifi) MacQ)) {c : Conf} {w : Option Wifi} {t0 : List Ev} {T : List (List Byte)} {d : D}
    (hr : 60 ≤ c.rx) (ht : 20 ≤ c.tx) (hn : c.tx ≤ n) (hI : c.Idle) (hm : c.part = []) (hv : Inv d) (h : Here false p c w t0 T d)
    (hts : ∀ t ∈ ts, TourEsp p c.tx t) :
    ∃ c' w', (∀ r, c'.to r = c.to r) ∧ c'.rx = c.rx ∧ c'.tx = c.tx ∧ c'.Idle ∧ c'.part = [] ∧
      Here false p c' w' t0 (T ++ ts.flatMap (Tour.says helloEsp byeEsp (MacQ.sayEsp))) (exec (step p) d (tours setupEsp MacQ.op n ts)) := by
  induction ts generalizing c w T d with
  | nil => exact ⟨_, _, fun _ => rfl, rfl, rfl, hI, hm, by rw [List.flatMap_nil, List.append_nil]; exact h⟩
  | cons t ts ih =>
    obtain ⟨a0, h1⟩ := tour_ok p hr ht hn hI hm hv h (hts t List.mem_cons_self)
    have v1 := exec_inv (step := step p) (ok := fun _ => True) (I := Inv) (fun d op _ h => step_inv p op h) hv (t.ops setupEsp MacQ.op n) fun _ _ => trivial
    obtain ⟨c2, b0, e0, e1, e2, e3, e4, h2⟩ := ih (c := c.to t.peer) hr ht hn hI hm v1 h1 fun u hu => hts u (List.mem_cons_of_mem _ hu)
    refine ⟨c2, b0, fun r => e0 r, e1, e2, e3, e4, ?_⟩
    rw [List.flatMap_cons, ← List.append_assoc]
    show Here _ _ _ _ _ _ (exec (step p) d (_ ++ tours setupEsp MacQ.op n ts))
    rw [exec_append]
    exact h2

end Espressif

namespace CC1352P7

/-- The application gets no value. -/
theorem pending {on : Bool} {q : MacQ} {c : Conf} {t0 : List Ev} {T : List (List Byte)} {I : Bool → Int → CcExt → Prop} {d : D}
    (h : Holds c t0 T (asking on q) I d) : q.PendingCC d := by
  cases q with
  | signal m => simpa [MacQ.PendingCC, Dev.getRSSI, int16Max] using h.1.ask
  | none => simpa [MacQ.PendingCC, Dev.getRSSI, int16Max] using h.1.ask
  | mac s => simp [MacQ.PendingCC, getMacString, h.1.wait]

/-- A tour. -/
theorem tour_ok (p : Platform) {n : Nat} {t : Tour (Unit) MacQ} {c : Conf}  {t0 : List Ev} {T : List (List Byte)} {d : D}
    (hr : 60 ≤ c.rx) (ht : 20 ≤ c.tx) (hn : c.tx ≤ n) (hI : c.Idle) (hm : c.part = []) (hv : Inv d) (h : Here false p c t0 T d)
    (hts : TourCC p c.tx t) :
    ∃ _u : Unit, Here false p (c.to t.peer) t0 (T ++ t.says helloCC byeCC (MacQ.sayCC))
      (exec (step p) d (t.ops (fun _ => setupCC) MacQ.op n)) := by
  obtain ⟨hf, hvi, hb, hd⟩ := hts
  have h1 := inquiry_ok (on := false) (is := t.before) p hr ht hn hI hm hb h
  have v1 := exec_inv (step := step p) (ok := fun _ => True) (I := Inv) (fun d op _ h => step_inv p op h) hv (inquiry MacQ.op n t.before) fun _ _ => trivial
  have h2 := connect_ok p hr ht hn hI hm hf.peer hf.texts h1.1 t.visit.dial hvi.up hvi.stay
  have l2 := macLen_exec p v1 h1.2 ((fun _ => setupCC) t.access t.peer ++ (dial t.visit.dial ++ Spec.ops n t.visit.up) ++ hearAll n t.visit.stay)
  have v2 := exec_inv (step := step p) (ok := fun _ => True) (I := Inv) (fun d op _ h => step_inv p op h) v1 ((fun _ => setupCC) t.access t.peer ++ (dial t.visit.dial ++ Spec.ops n t.visit.up) ++ hearAll n t.visit.stay) fun _ _ => trivial
  have h3 := inquiry_ok (on := true) (is := t.during) (c := c.to t.peer) p hr ht hn hI hm hd ⟨h2, l2⟩
  have v3 := exec_inv (step := step p) (ok := fun _ => True) (I := Inv) (fun d op _ h => step_inv p op h) v2 (inquiry MacQ.op n t.during) fun _ _ => trivial
  have h4 := leave_ok (c := c.to t.peer) p hr ht hn hI hm h3.1 t.visit.hangUp hvi.down hvi.rest
  have l4 := macLen_exec p v3 h3.2 (hangUp t.visit.hangUp ++ Spec.ops n t.visit.down ++ hearAll n t.visit.rest)
  refine ⟨(), ?_, ?_⟩
  · rw [← exec_append, ← exec_append, ← exec_append, ← List.append_assoc, ← List.append_assoc] at h4
    simpa [Tour.says, Tour.ops, enter, depart] using h4
  · rw [← exec_append, ← exec_append, ← exec_append, ← List.append_assoc, ← List.append_assoc] at l4
    exact l4

theorem tours_ok (p : Platform) {n : Nat} (ts : List (Tour (Unit) MacQ)) {c : Conf}  {t0 : List Ev} {T : List (List Byte)} {d : D}
    (hr : 60 ≤ c.rx) (ht : 20 ≤ c.tx) (hn : c.tx ≤ n) (hI : c.Idle) (hm : c.part = []) (hv : Inv d) (h : Here false p c t0 T d)
    (hts : ∀ t ∈ ts, TourCC p c.tx t) :
    ∃ c' , (∀ r, c'.to r = c.to r) ∧ c'.rx = c.rx ∧ c'.tx = c.tx ∧ c'.Idle ∧ c'.part = [] ∧
      Here false p c' t0 (T ++ ts.flatMap (Tour.says helloCC byeCC (MacQ.sayCC))) (exec (step p) d (tours (fun _ => setupCC) MacQ.op n ts)) := by
  induction ts generalizing c  T d with
  | nil => exact ⟨_, fun _ => rfl, rfl, rfl, hI, hm, by rw [List.flatMap_nil, List.append_nil]; exact h⟩
  | cons t ts ih =>
    obtain ⟨a0, h1⟩ := tour_ok p hr ht hn hI hm hv h (hts t List.mem_cons_self)
    have v1 := exec_inv (step := step p) (ok := fun _ => True) (I := Inv) (fun d op _ h => step_inv p op h) hv (t.ops (fun _ => setupCC) MacQ.op n) fun _ _ => trivial
    obtain ⟨c2, e0, e1, e2, e3, e4, h2⟩ := ih (c := c.to t.peer) hr ht hn hI hm v1 h1 fun u hu => hts u (List.mem_cons_of_mem _ hu)
    refine ⟨c2, fun r => e0 r, e1, e2, e3, e4, ?_⟩
    rw [List.flatMap_cons, ← List.append_assoc]
    show Here _ _ _ _ _ (exec (step p) d (_ ++ tours (fun _ => setupCC) MacQ.op n ts))
    rw [exec_append]
    exact h2

end CC1352P7

end Verif
