import Verif.Proofs.Server.Silent
import Verif.Proofs.Server.Writes
/-! # A connection of the whole server while its client sends nothing -/
namespace Stomp.Server
open Stomp

theorem Silent.mono {c c' : Conn} {P P' : Msg → Prop} {Q Q' : Nat → Prop} (hP : ∀ m, P m → P' m) (hQ : ∀ i, Q i → Q' i) (h : Silent c c' P Q) : Silent c c' P' Q' := by
  obtain ⟨ws, ho, hw⟩ := h.out
  exact ⟨h.inq, h.hist, h.effective, h.log, fun m hm => (h.writeCh m hm).imp id (hP m), fun i hi => (h.subCh i hi).imp id (hQ i), h.subs, h.ids, ⟨ws, ho, fun w hm => (hw w hm).mono hP hQ⟩⟩

abbrev Still (k k' : Conn) : Prop := Silent k k' (fun _ => True) (fun _ => True)

theorem Still.refl {k : Conn} (h : k.inq = []) : Still k k :=
  ⟨h, rfl, rfl, ⟨[], (List.append_nil _).symm, by simp⟩, fun _ => .inl, fun _ => .inl, fun _ _ => id, fun _ => rfl, ⟨[], (List.append_nil _).symm, by simp⟩⟩

theorem Still.trans {k k' k'' : Conn} (h : Still k k') (h' : Still k' k'') : Still k k'' :=
  (Silent.trans h h').mono (fun _ _ => trivial) (fun _ _ => trivial)

theorem still_step {cfg : Config} {k k' : Conn} {e : Conn.Ev} (hq : k.inq = []) (he : ∀ f, e ≠ .recv f) (h : Step cfg k e k') : Still k k' :=
  (silent_step hq he h).mono (fun _ _ => trivial) (fun _ _ => trivial)

theorem still_sys {cfg : Config} {s s' : Sys} {e : Sys.Ev} (hs : SysStep cfg s e s') {c : Nat} {k : Conn} (hk : s.conns[c]? = some k) (hq : k.inq = [])
    (he : ∀ f, e ≠ .conn c (.recv f)) : ∃ k', s'.conns[c]? = some k' ∧ Still k k' := by
  have same : s'.conns = s.conns → ∃ k', s'.conns[c]? = some k' ∧ Still k k' := fun h => ⟨k, by rw [h]; exact hk, .refl hq⟩
  have one : ∀ {j : Nat} {k1 k2 : Conn}, s.conns[j]? = some k1 → s'.conns = s.conns.set j k2 → (k1.inq = [] → Still k1 k2) → ∃ k', s'.conns[c]? = some k' ∧ Still k k' := by
    intro j k1 k2 h1 h2 h3
    rw [h2, get_set h1]
    split
    · rename_i hj
      subst hj
      rw [hk] at h1
      cases h1
      exact ⟨k2, rfl, h3 hq⟩
    · exact ⟨k, hk, .refl hq⟩
  cases hs with
  | accept =>
    refine ⟨k, ?_, .refl hq⟩
    dsimp only
    rw [List.getElem?_append_left (List.getElem?_eq_some_iff.1 hk).1]
    exact hk
  | conn j e k1 k2 h1 hin hst =>
    by_cases hj : j = c
    · subst hj
      exact one h1 rfl fun h => still_step h (fun f hf => he f (by rw [hf])) (step_of _ _ _ _ hst)
    · refine ⟨k, ?_, .refl hq⟩
      dsimp only
      rw [List.getElem?_set_ne hj]
      exact hk
  | flush j k r o h1 ho hc => exact one h1 rfl fun h => still_step (cfg := cfg) h (by simp) (.flushed r o ho)
  | skip => exact same rfl
  | joinTopic => exact same rfl
  | wait r rs k dest ht hr hk => exact one hk rfl fun h => still_step (cfg := cfg) h (by simp) (.setInList _ _)
  | take r rs k dest m l ht hr hk hx hdd hq hm hf => exact one hk rfl fun h => still_step (cfg := cfg) h (by simp) (.setFrame _ _)
  | leaveQueue r rs k dest ht hr hk => exact one hk rfl fun h => still_step (cfg := cfg) h (by simp) (.setInList _ _)
  | absent => exact same rfl
  | leaveTopic => exact same rfl
  | store => exact same rfl
  | give front m rs dest r q k ht hr hdd hq he hk hx hf =>
    exact one hk rfl fun h => (still_step (cfg := cfg) h (by simp) (.setInList r.idx false)).trans (still_step (cfg := cfg) h (by simp) (.setFrame r.idx _))
  | cast => exact same rfl
  | drop => exact same rfl
  | pushQueue r t k ht hk hc => exact one hk rfl fun h => still_step (cfg := cfg) h (by simp) (.pushSub _ hc)
  | pushTopic dest r m t k ht hk hfr hc => exact one hk rfl fun h => still_step (cfg := cfg) h (by simp) (.pushTopic _ hc)

end Stomp.Server
