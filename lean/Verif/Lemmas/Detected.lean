import Verif.Lemmas.Detect
import Verif.Lemmas.Tours

/-! Drivers created by the detector. -/

namespace Verif

open Dev Spec

namespace ModemDetect

variable (p : Platform) {rx tx n : Nat} (hr : 60 ≤ rx) (ht : 20 ≤ tx) (hn : tx ≤ n) {rxm txm : List Byte} (h1 : rx = rxm.length)
  (h2 : tx = txm.length) {s : Search}

theorem execD_append (m : MD) (a b : List DOp) : execD p m (a ++ b) = execD p (execD p m a) b := List.foldl_append

include hr ht hn h1 h2

theorem search_one {a : Await} {det : Det} (hs : s.Ok [⟨a, []⟩]) (hd : det = .detectedSim800 ∨ det = .detectedSim7x00 ∨ det = .detectedCC1352P7)
    (hi : ∀ l g, a.idle l → Waits rx tx .cgmmSent true [cgmm] [] g → examine g (l ++ [0]) = g)
    (hg : ∀ l g, a.good l → Waits rx tx .cgmmSent true [cgmm] [] g → examine g (l ++ [0]) = { g with det := det }) :
    Waits rx tx det true [cgmm] [] (execD p (init (Ser.init rxm txm [])) (s.ops n)) := by
  obtain ⟨x, y, z⟩ := hs
  have hp : Passive det true ∧ Deaf det := by rcases hd with rfl | rfl | rfl <;> exact ⟨⟨by decide, by decide⟩, by decide, by decide, by decide⟩
  have a0 := begin_ok p hr ht hn h1 h2 x s.wait
  unfold Search.ops
  rw [execD_append, List.map_append, execD_append]
  generalize execD p (init (Ser.init rxm txm [])) _ = m at a0
  refine Waits.lines p hr hn ?_ hp.1 hp.2 z
  generalize s.beats = bs at y
  cases y with
  | cons hb y =>
    cases y
    show Waits _ _ _ _ _ _ (execD p m ((_ ++ []).map via))
    rw [List.append_nil]
    refine a0.beat p hr hn ⟨by decide, by decide⟩ hp.1 hb hi ?_
    intro l g hl hw hf
    rw [hg l g hl hw]
    exact hw.to hf

theorem search_sim800 (hs : s.Ok find800) : Waits rx tx .detectedSim800 true [cgmm] [] (execD p (init (Ser.init rxm txm [])) (s.ops n)) := by
  refine search_one p hr ht hn h1 h2 hs (.inl rfl) ?_ fun l g hl hw => examine_sim800 hw.det hl
  intro l g hl hw
  exact examine_cgmm hw.det (hl _ (by simp)) (hl _ (by simp)) (hl _ (by simp)) (hl _ (by simp))

theorem search_sim7x00 (hs : s.Ok find7x00) : Waits rx tx .detectedSim7x00 true [cgmm] [] (execD p (init (Ser.init rxm txm [])) (s.ops n)) := by
  refine search_one p hr ht hn h1 h2 hs (.inr (.inl rfl)) ?_ fun l g hl hw => examine_sim7x00 hw.det hl
  intro l g hl hw
  exact examine_cgmm hw.det (hl _ (by simp)) (hl _ (by simp)) (hl _ (by simp)) (hl _ (by simp))

theorem search_cc (hs : s.Ok findCC) : Waits rx tx .detectedCC1352P7 true [cgmm] [] (execD p (init (Ser.init rxm txm [])) (s.ops n)) := by
  refine search_one p hr ht hn h1 h2 hs (.inr (.inr rfl)) ?_ fun l g hl hw => examine_cc hw.det hl
  intro l g hl hw
  exact examine_cgmm hw.det (hl _ (by simp)) (hl _ (by simp)) (hl _ (by simp)) (hl _ (by simp))

theorem search_esp (hs : s.Ok findEsp) : Waits rx tx .detectedEspressif true [cgmm, gmr] [] (execD p (init (Ser.init rxm txm [])) (s.ops n)) := by
  obtain ⟨x, y, z⟩ := hs
  have a0 := begin_ok p hr ht hn h1 h2 x s.wait
  unfold Search.ops
  rw [execD_append, List.map_append, execD_append]
  generalize execD p (init (Ser.init rxm txm [])) _ = m at a0
  refine Waits.lines p hr hn ?_ ⟨by decide, by decide⟩ ⟨by decide, by decide, by decide⟩ z
  generalize s.beats = bs at y
  cases y with
  | cons b1 y =>
  cases y with
  | cons b2 y =>
  cases y with
  | cons b3 y =>
    cases y
    rename_i c1 c2 c3
    have e : Spec.ops n [c1, c2, c3] = c1.ops n ++ (c2.ops n ++ c3.ops n) := by simp [Spec.ops]
    rw [e, List.map_append, List.map_append, execD_append, execD_append]
    have a1 : Waits rx tx .gmrSent true [cgmm, gmr] [] (execD p m ((c1.ops n).map via)) := by
      refine a0.beat p hr hn ⟨by decide, by decide⟩ ⟨by decide, by decide⟩ b1 ?_ ?_
      · intro l g hl hw
        exact examine_cgmm hw.det (hl _ (by simp)) (hl _ (by simp)) (hl _ (by simp)) (hl _ (by simp))
      · intro l g hl hw hf
        rw [examine_error hw.det hl]
        exact hw.send hf (.inr rfl) (by decide) (by show 8 ≤ _; omega)
    generalize execD p m ((c1.ops n).map via) = m at a1
    have a2 : Waits rx tx .espressifWaitOk true [cgmm, gmr] [] (execD p m ((c2.ops n).map via)) := by
      refine a1.beat p hr hn ⟨by decide, by decide⟩ ⟨by decide, by decide⟩ b2 ?_ ?_
      · intro l g hl hw
        exact examine_gmr hw.det (hl _ (by simp)) (hl _ (by simp))
      · intro l g hl hw hf
        rw [examine_version hw.det hl]
        exact hw.to hf
    generalize execD p m ((c2.ops n).map via) = m at a2
    refine a2.beat p hr hn ⟨by decide, by decide⟩ ⟨by decide, by decide⟩ b3 ?_ ?_
    · intro l g hl hw
      exact examine_wait hw.det (hl _ (by simp))
    · intro l g hl hw hf
      rw [examine_ok hw.det hl]
      exact hw.to hf

omit hr ht hn h1 h2

/-! ### The driver -/

theorem forward_sim7x00 {m : MD} {d : Sim7x00.D} (h : m.modem = some (.sim7x00 d)) (ops : List Op) :
    (execD p m (ops.map via)).modem = some (.sim7x00 (exec (Sim7x00.step p) d ops)) := by
  induction ops generalizing m d with
  | nil => exact h
  | cons op ops ih =>
    refine ih (m := step p m (via op)) (d := Sim7x00.step p d op) ?_
    cases m
    simp only at h
    subst h
    cases op <;> rfl

theorem forward_sim800 {m : MD} {d : Sim800.D} (h : m.modem = some (.sim800 d)) (ops : List Op) :
    (execD p m (ops.map via)).modem = some (.sim800 (exec (Sim800.step p) d ops)) := by
  induction ops generalizing m d with
  | nil => exact h
  | cons op ops ih =>
    refine ih (m := step p m (via op)) (d := Sim800.step p d op) ?_
    cases m
    simp only at h
    subst h
    cases op <;> rfl

theorem forward_esp {m : MD} {d : Espressif.D} (h : m.modem = some (.espressif d)) (ops : List Op) :
    (execD p m (ops.map via)).modem = some (.espressif (exec (Espressif.step p) d ops)) := by
  induction ops generalizing m d with
  | nil => exact h
  | cons op ops ih =>
    refine ih (m := step p m (via op)) (d := Espressif.step p d op) ?_
    cases m
    simp only at h
    subst h
    cases op <;> rfl

theorem forward_cc {m : MD} {d : CC1352P7.D} (h : m.modem = some (.cc1352p7 d)) (ops : List Op) :
    (execD p m (ops.map via)).modem = some (.cc1352p7 (exec (CC1352P7.step p) d ops)) := by
  induction ops generalizing m d with
  | nil => exact h
  | cons op ops ih =>
    refine ih (m := step p m (via op)) (d := CC1352P7.step p d op) ?_
    cases m
    simp only at h
    subst h
    cases op <;> rfl

end ModemDetect

variable {p : Platform} {s : Ser} {rx tx : Nat} {rmem wmem line ip id mac : List Byte} {ty : ConnType} {ssid passwd : CPtr}

theorem Sim7x00.made_ok (h : Ser.Calm s [] rx tx) (hf : s.txFree = tx) (h2 : line.length = 61) (h3 : ip.length = 16) (h4 : 2 ≤ id.length) :
    Sim7x00.Down (.start rx tx wmem.length rmem.length ty) none none [] [] { Sim7x00.init s rmem wmem ty line ip id with isOpen := true } := by
  refine ⟨⟨⟨rfl, rfl, rfl, rfl, ⟨h2, (show 0 < lineMax by decide), rfl⟩, ⟨rfl, rfl⟩, h.flushed.1⟩, ⟨[.apiReset], rfl, rfl, ?_, rfl, rfl⟩, rfl, rfl, rfl, rfl, rfl,
    Ring.rep_flush rfl rfl, rfl, Ring.rep_flush rfl rfl, rfl, rfl, rfl, rfl, ⟨rfl, h3, ?_, (by decide : 0 < 1500), by simp⟩⟩, h.flushed.2.2.trans hf⟩
  · intro w g x; simp at x
  · refine .inl (show (((⟨id, false⟩ : Mem).store 0 0).store 1 0).get 1 = 0 from ?_)
    unfold Mem.get Mem.store
    simp [List.getD_eq_getElem?_getD, List.getElem?_set, show 1 < id.length by omega]

theorem Sim800.made_ok (h : Ser.Calm s [] rx tx) (hf : s.txFree = tx) (h2 : line.length = 61) (h3 : ip.length = 16) (h4 : 2 ≤ id.length) :
    Sim800.Down (.start rx tx wmem.length rmem.length ty) none none [] [] { Sim800.init s rmem wmem ty line ip id with isOpen := true } := by
  refine ⟨⟨⟨rfl, rfl, rfl, rfl, ⟨h2, (show 0 < lineMax by decide), rfl⟩, ⟨rfl, rfl⟩, h.flushed.1⟩, ⟨[.apiReset], rfl, rfl, ?_, rfl, rfl⟩, rfl, rfl, rfl, rfl, rfl,
    Ring.rep_flush rfl rfl, rfl, Ring.rep_flush rfl rfl, rfl, rfl, rfl, rfl, ⟨rfl, h3, ?_, (by decide : 0 < 1460), by simp⟩⟩, h.flushed.2.2.trans hf⟩
  · intro w g x; simp at x
  · refine .inl (show (((⟨id, false⟩ : Mem).store 0 0).store 1 0).get 1 = 0 from ?_)
    unfold Mem.get Mem.store
    simp [List.getD_eq_getElem?_getD, List.getElem?_set, show 1 < id.length by omega]

theorem CC1352P7.made_ok (h : Ser.Calm s [] rx tx) (hf : s.txFree = tx) (h2 : line.length = 61)
    (h3 : ¬ (p.charSigned = false ∧ mac.getD 1 0 = 255 ∧ mac.getD 0 0 = 0)) :
    CC1352P7.Down p (.start rx tx wmem.length rmem.length ty) [] [] { CC1352P7.init s rmem wmem ty line mac with isOpen := true } := by
  refine ⟨⟨⟨rfl, rfl, rfl, rfl, ⟨h2, (show 0 < lineMax by decide), rfl⟩, ⟨rfl, rfl⟩, h.flushed.1⟩, ⟨[.apiReset], rfl, rfl, ?_, rfl, rfl⟩, rfl, rfl, rfl, rfl, rfl,
    Ring.rep_flush rfl rfl, rfl, Ring.rep_flush rfl rfl, rfl, rfl, rfl, rfl, ⟨?_⟩⟩, h.flushed.2.2.trans hf⟩
  · intro w g x; simp at x
  · show ¬ (Espressif.macMarked p (⟨mac, false⟩ : Mem) = true ∧ (⟨mac, false⟩ : Mem).get 0 = 0)
    unfold Espressif.macMarked Mem.get
    simpa [and_assoc] using h3

theorem Espressif.made_ok (h : Ser.Calm s [] rx tx) (hf : s.txFree = tx) (h2 : line.length = 61)
    (h3 : ¬ (p.charSigned = false ∧ mac.getD 1 0 = 255 ∧ mac.getD 0 0 = 0)) :
    Espressif.Down p (.start rx tx wmem.length rmem.length ty) none [] []
      { Espressif.init s rmem wmem ty line mac ssid passwd with isOpen := true } := by
  refine ⟨⟨⟨rfl, rfl, rfl, rfl, ⟨h2, (show 0 < lineMax by decide), rfl⟩, ⟨rfl, rfl⟩, h.flushed.1⟩, ⟨[.apiReset], rfl, rfl, ?_, rfl, rfl⟩, rfl, rfl, rfl, rfl, rfl,
    Ring.rep_flush rfl rfl, rfl, Ring.rep_flush rfl rfl, rfl, rfl, rfl, rfl, ⟨?_, by simp⟩⟩, h.flushed.2.2.trans hf⟩
  · intro w g x; simp at x
  · show ¬ (Espressif.macMarked p (⟨mac, false⟩ : Mem) = true ∧ (⟨mac, false⟩ : Mem).get 0 = 0)
    unfold Espressif.macMarked Mem.get
    simpa [and_assoc] using h3

theorem Sim7x00.made_inv (h : Ser.Calm s [] rx tx) (hl : line.length = 61) :
    Sim7x00.Inv { Sim7x00.init s rmem wmem ty line ip id with isOpen := true } :=
  ⟨⟨Ser.rxOk_flush ⟨[], h.q⟩, ⟨hl, (by decide : 0 < lineMax), rfl⟩,
    ⟨by intro c hc; simp [Sim7x00.init, SimDev.init, SimDev.resetStates, part] at hc,
     by intro l hc; simp [Sim7x00.init, SimDev.init, SimDev.resetStates] at hc⟩⟩, .of_zero rfl⟩

theorem Sim800.made_inv (h : Ser.Calm s [] rx tx) (hl : line.length = 61) :
    Sim800.Inv { Sim800.init s rmem wmem ty line ip id with isOpen := true } :=
  ⟨⟨Ser.rxOk_flush ⟨[], h.q⟩, ⟨hl, (by decide : 0 < lineMax), rfl⟩,
    ⟨by intro c hc; simp [Sim800.init, SimDev.init, SimDev.resetStates, part] at hc,
     by intro l hc; simp [Sim800.init, SimDev.init, SimDev.resetStates] at hc⟩⟩, .of_zero rfl⟩

theorem CC1352P7.made_inv (h : Ser.Calm s [] rx tx) (hl : line.length = 61) :
    CC1352P7.Inv { CC1352P7.init s rmem wmem ty line mac with isOpen := true } :=
  ⟨⟨Ser.rxOk_flush ⟨[], h.q⟩, ⟨hl, (by decide : 0 < lineMax), rfl⟩,
    ⟨by intro c hc; simp [CC1352P7.init, CC1352P7.resetStates, part] at hc,
     by intro l hc; simp [CC1352P7.init, CC1352P7.resetStates] at hc⟩⟩, .of_zero rfl⟩

theorem Espressif.made_inv (h : Ser.Calm s [] rx tx) (hl : line.length = 61) :
    Espressif.Inv { Espressif.init s rmem wmem ty line mac ssid passwd with isOpen := true } :=
  ⟨Ser.rxOk_flush ⟨[], h.q⟩, ⟨hl, (by decide : 0 < lineMax), rfl⟩,
    ⟨by intro c hc; simp [Espressif.init, Espressif.resetStates, part] at hc,
     by intro l hc; simp [Espressif.init, Espressif.resetStates] at hc⟩⟩

end Verif
