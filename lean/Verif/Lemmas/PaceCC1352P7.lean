import Verif.Lemmas.Stages

/-!
# The CC1352P7 driver never sleeps
-/

namespace Verif
namespace CC1352P7

open Dev

def Paced (d : D) : Prop := d.delay = 0

theorem paced_calls : Calls Paced where
  io _ _ _ _ _ h := h
  isOpen _ _ h := h
  host _ _ _ _ h := h
  conn _ h _ _ := h
  disc0 _ h _ := h
  disc _ h _ := h
  write0 _ h _ := h
  write _ _ h _ := h
  read _ _ h := h
  rssi _ h := h
  userTx _ _ _ _ h := h
  userRx _ _ _ _ h := h

theorem act_delay (d : D) : (act d).delay = d.delay := by
  unfold act
  split <;> (try unfold actCipstart) <;> (try unfold actConnected) <;> (try unfold actCiprecvdata) <;>
    (try unfold actReceiving) <;> (try dsimp only) <;> (repeat' split) <;> simp

theorem parseLine_delay (p : Platform) (d : D) : (parseLine p d).1.delay = d.delay := by
  have h1 : ∀ e : D, (parseWait e).delay = e.delay := by
    intro e; unfold parseWait; split <;> rfl
  have h2 : ∀ e : D, (checkState p e).delay = e.delay := by
    intro e; unfold checkState; (repeat' split) <;> simp
  have h4 : ∀ e : D, (parseMac e).delay = e.delay := by
    intro e; unfold parseMac; (repeat' split) <;> simp
  have h5 : ∀ e : D, (parseCsq p e).1.delay = e.delay := by
    intro e; unfold parseCsq; (repeat' split) <;> simp
  have h3 : ∀ e : D, (parseReply p e).delay = e.delay := by
    intro e; unfold parseReply; dsimp only; (repeat' split) <;> simp_all
  unfold parseLine
  split
  · rfl
  · rw [h2, h3, h1]

theorem paced_sections (p : Platform) : Sections p Paced where
  fail _ h _ := h
  reset d h _ := by
    show (handleReset d).delay = 0
    have : (handleReset d).delay = d.delay := by
      unfold handleReset; dsimp only; (repeat' split) <;> simp
    rw [this]; exact h
  line d s m l _ h _ _ _ _ _ := (parseLine_delay p _).trans h
  drop _ h _ _ _ := h
  csq _ h _ _ _ _ _ _ := h
  mac _ h _ _ _ _ _ _ := h
  act d h _ _ _ _ := (act_delay d).trans h

theorem paced_own : Own Paced where
  reset d h := by
    show (resetStates d).delay = 0
    have : (resetStates d).delay = d.delay := by simp [resetStates]
    rw [this]; exact h
  ext _ _ h := h

end CC1352P7
end Verif
