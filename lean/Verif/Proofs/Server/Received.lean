import Verif.Proofs.Server.Lift
import Verif.Spec.Received
/-! # The frames a connection has received, processed or not -/
namespace Stomp.Server
open Stomp

/-- Induction over the runs of the server, with the events so far. -/
theorem sys_trace {cfg : Config} {P : List Sys.Ev → Sys → Prop} (h0 : P [] Sys.init)
    (hstep : ∀ es s e s', SInv cfg s → P es s → SysStep cfg s e s' → P (es ++ [e]) s') (es : List Sys.Ev) (s : Sys)
    (h : Sys.init.run cfg es = some s) (hc : s.crashed = false) : P es s := by
  have key : ∀ (es pre : List Sys.Ev) (s0 : Sys), SInv cfg s0 → P pre s0 → s0.run cfg es = some s → P (pre ++ es) s := by
    intro es
    induction es with
    | nil =>
      intro pre s0 _ hp h
      simp only [Sys.run, Option.some.injEq] at h
      subst h
      rw [List.append_nil]; exact hp
    | cons e es ih =>
      intro pre s0 hi hp h
      have h' := h
      simp only [Sys.run] at h
      split at h
      · cases h
      · rename_i s1 hs1
        rcases (sys_step hi.refs hs1).2 with hcr | hst
        · rw [not_crashed h hc] at hcr; cases hcr
        · have := ih (pre ++ [e]) s1 (sinv_step hi hst) (hstep _ _ _ _ hi hp hst) h
          rwa [List.append_assoc] at this
  exact key es [] _ (SInv.init cfg) h0 h

/-- The frame received in an event of a connection. -/
def Conn.Ev.received : Conn.Ev → List Frame
  | .recv f => [f]
  | _ => []

open Spec (receivedBy)

theorem received_step {cfg : Config} {c : Conn} {e : Conn.Ev} {c' : Conn} (hg : Gate cfg c) (h : Step cfg c e c') :
    c'.hist ++ c'.inq = c.hist ++ c.inq ++ e.received := by
  cases h with
  | recv f => simp [Conn.Ev.received]
  | frame ok1 ok2 f q c1 _ f' r ha hq hsf hfin =>
    rw [hq]
    simp only [Conn.Ev.received, List.append_nil]
    rcases frame_cases hg hsf hfin with ⟨_, v, cx, cy, _, ⟨_, rfl⟩ | ⟨_, rfl⟩⟩ | ⟨_, _, e, v, ⟨_, rfl⟩ | ⟨_, rfl⟩⟩ | ⟨_, hh', hf⟩
    · simp [Conn.emit]
    · simp [Conn.emit]
    · simp
    · simp
    · have h1 := hh'.keeps.hist
      have h2 := hh'.keeps.inq
      cases hf <;> simp [h1, h2]
  | _ => simp [Conn.Ev.received, Conn.emit]

/-- What a connection has processed and what waits to be processed is what it received, in order. -/
theorem received_run {cfg : Config} {es : List Sys.Ev} {s : Sys} (h : Sys.init.run cfg es = some s) (hc : s.crashed = false) {c : Nat} {k : Conn}
    (hk : s.conns[c]? = some k) : k.hist ++ k.inq = receivedBy c es := by
  refine (sys_trace (P := fun es s => (∀ c, s.conns.length ≤ c → receivedBy c es = []) ∧
      ∀ (c : Nat) (k : Conn), s.conns[c]? = some k → k.hist ++ k.inq = receivedBy c es)
    ⟨fun _ _ => rfl, by simp [Sys.init]⟩ ?_ es s h hc).2 c k hk
  intro es s e s' hi ⟨hlen, hp⟩ hs
  have app : ∀ c, receivedBy c (es ++ [e]) = receivedBy c es ++ receivedBy c [e] := by
    intro c; unfold receivedBy; rw [List.flatMap_append]
  have upd : ∀ {i : Nat} {k k' : Conn}, s.conns[i]? = some k → k'.hist ++ k'.inq = k.hist ++ k.inq ++ receivedBy i [e] →
      (∀ c, i ≠ c → receivedBy c [e] = []) →
      (∀ c, (s.conns.set i k').length ≤ c → receivedBy c (es ++ [e]) = []) ∧
      ∀ (c : Nat) (x : Conn), (s.conns.set i k')[c]? = some x → x.hist ++ x.inq = receivedBy c (es ++ [e]) := by
    intro i k k' hk he hr
    have hil := (List.getElem?_eq_some_iff.1 hk).1
    rw [List.length_set]
    refine ⟨fun c hc => by rw [app, hlen c hc, hr c (by omega)]; rfl, fun c x hx => ?_⟩
    rw [app]
    rw [get_set hk] at hx
    split at hx
    · rename_i hj
      subst hj
      injection hx with hx; subst hx
      rw [he, hp _ k hk]
    · rename_i hj
      rw [hr c hj, List.append_nil]
      exact hp c x hx
  have keep : (∀ c, receivedBy c [e] = []) → (∀ c, s.conns.length ≤ c → receivedBy c (es ++ [e]) = []) ∧
      ∀ (c : Nat) (x : Conn), s.conns[c]? = some x → x.hist ++ x.inq = receivedBy c (es ++ [e]) := by
    intro hr
    refine ⟨fun c hc => by rw [app, hlen c hc, hr c]; rfl, fun c x hx => ?_⟩
    rw [app, hr c, List.append_nil]; exact hp c x hx
  have nil : e = .accept ∨ e = .proc ∨ e = .push ∨ (∃ c, e = .flush c) → ∀ c, receivedBy c [e] = [] := by
    rintro (rfl | rfl | rfl | ⟨c, rfl⟩) _ <;> rfl
  cases hs with
  | accept =>
    refine ⟨fun c hc => ?_, fun c x hx => ?_⟩
    · rw [List.length_append, List.length_singleton] at hc
      rw [app, hlen c (by omega)]; rfl
    · rw [app, show receivedBy c [Sys.Ev.accept] = [] from rfl, List.append_nil]
      by_cases hlt : c < s.conns.length
      · rw [List.getElem?_append_left hlt] at hx; exact hp c x hx
      · rw [List.getElem?_append_right (by omega)] at hx
        rw [hlen c (by omega)]
        cases hn : c - s.conns.length with
        | zero =>
          rw [hn] at hx
          simp at hx
          subst hx
          rfl
        | succ n => rw [hn] at hx; simp at hx
  | conn c e k k' hk hin hst =>
    obtain ⟨ces, hr⟩ := hi.run c k hk
    have := received_step (gate_run cfg c ces k hr) (step_of cfg k e k' hst)
    refine upd hk ?_ ?_
    · rw [this]
      cases e <;> simp [receivedBy, Conn.Ev.received]
    · intro j hj
      cases e <;> simp [receivedBy, hj]
  | flush c k r o hk ho hc => exact upd hk (by rw [nil (by simp)]; simp) (fun _ _ => nil (by simp) _)
  | wait r rs k dest ht hr hk => exact upd hk (by rw [nil (by simp)]; simp) (fun _ _ => nil (by simp) _)
  | take r rs k dest m l ht hr hk => exact upd hk (by rw [nil (by simp)]; simp) (fun _ _ => nil (by simp) _)
  | leaveQueue r rs k dest ht hr hk => exact upd hk (by rw [nil (by simp)]; simp) (fun _ _ => nil (by simp) _)
  | give front m rs dest r q k ht hr hdd hq he hk => exact upd hk (by rw [nil (by simp)]; simp) (fun _ _ => nil (by simp) _)
  | pushQueue r t k ht hk hc => exact upd hk (by rw [nil (by simp)]; simp) (fun _ _ => nil (by simp) _)
  | pushTopic dest r m t k ht hk hf hc => exact upd hk (by rw [nil (by simp)]; simp) (fun _ _ => nil (by simp) _)
  | _ => exact keep (nil (by simp))

end Stomp.Server
