import Verif.Lemmas.Trips
import Verif.Lemmas.Recover7x00
import Verif.Lemmas.Recover800
import Verif.Lemmas.RecoverEsp
import Verif.Lemmas.RecoverCC

/-! What the application sees during the recovery. -/

namespace Verif

open Dev Spec

namespace Sim7x00

theorem Step.seen {c : Conf} {a : List Byte} {r : Peer} {t0 : List Ev} {T : List (List Byte)} {d : D} :
    ∀ {j : Nat}, Step c a r t0 T j d →
      Told t0 T c.took c.gave d.trace ∧ d.isIdle = false ∧ d.isConnected = decide (j = 10)
  | 0, h => by
    obtain ⟨x, hx, h⟩ := h
    exact ⟨h.told, by unfold Dev.isIdle; rw [h.cs]; rcases hx with rfl | rfl <;> decide, by unfold Dev.isConnected; rw [h.cs]; rcases hx with rfl | rfl <;> decide⟩
  | k + 1, h => by
    obtain ⟨h1, T', rfl, h2⟩ := h
    obtain ⟨h3, h4, h5⟩ := Stage.seen h1 h2
    exact ⟨h3, h4, by rw [h5]; simp⟩

end Sim7x00

namespace Sim800

theorem Step.seen {c : Conf} {a : List Byte} {r : Peer} {t0 : List Ev} {T : List (List Byte)} {d : D} :
    ∀ {j : Nat}, Step c a r t0 T j d →
      Told t0 T c.took c.gave d.trace ∧ d.isIdle = false ∧ d.isConnected = decide (j = 10)
  | 0, h => by
    exact ⟨h.told, by unfold Dev.isIdle; rw [h.cs]; decide, by unfold Dev.isConnected; rw [h.cs]; decide⟩
  | k + 1, h => by
    obtain ⟨h1, T', rfl, h2⟩ := h
    obtain ⟨h3, h4, h5⟩ := Stage.seen h1 h2
    exact ⟨h3, h4, by rw [h5]; simp⟩

end Sim800

namespace Espressif

theorem Step.seen {p : Platform} {c : Conf} {a : Wifi} {r : Peer} {t0 : List Ev} {T : List (List Byte)} {d : D} :
    ∀ {j : Nat}, Step p c a r t0 T j d →
      Told t0 T c.took c.gave d.trace ∧ d.isIdle = false ∧ d.isConnected = decide (j = 8)
  | 0, h => by
    exact ⟨h.told, by unfold Dev.isIdle; rw [h.cs]; decide, by unfold Dev.isConnected; rw [h.cs]; decide⟩
  | k + 1, h => by
    obtain ⟨h1, T', rfl, h2⟩ := h
    obtain ⟨h3, h4, h5⟩ := Stage.seen h1 h2
    exact ⟨h3, h4, by rw [h5]; simp⟩

end Espressif

namespace CC1352P7

theorem Step.seen {p : Platform} {c : Conf} {r : Peer} {t0 : List Ev} {T : List (List Byte)} {d : D} :
    ∀ {j : Nat}, Step p c r t0 T j d →
      Told t0 T c.took c.gave d.trace ∧ d.isIdle = false ∧ d.isConnected = decide (j = 3)
  | 0, h => by
    exact ⟨h.told, by unfold Dev.isIdle; rw [h.cs]; decide, by unfold Dev.isConnected; rw [h.cs]; decide⟩
  | k + 1, h => by
    obtain ⟨h1, T', rfl, h2⟩ := h
    obtain ⟨h3, h4, h5⟩ := Stage.seen h1 h2
    exact ⟨h3, h4, by rw [h5]; simp⟩

end CC1352P7

end Verif
