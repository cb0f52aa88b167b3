import Verif.Props.Server.Courteous
import Verif.Props.JointBusy
/-!
# Property C89: server and courteous clients together
-/
namespace Stomp.Joint
open Stomp

/-- All programs have sent courteous frames only. -/
def Spec.AllCourteous (s : State) : Prop := ∀ (c : Nat) (p : Peer), s.peers[c]? = some p → Server.Spec.Courteous (Client.Spec.written p.client)

/-- What a client has written stays written. -/
theorem peers_grow {cfg : Server.Config} {s s' : State} {e : Ev} (h : s.step cfg e = some s') {c : Nat} {p : Peer} (hp : s.peers[c]? = some p) :
    ∃ p', s'.peers[c]? = some p' ∧ Client.Spec.written p.client <+: Client.Spec.written p'.client := by
  have hlt := (List.getElem?_eq_some_iff.1 hp).1
  have upd : ∀ {i : Nat} {q q' : Peer}, s.peers[i]? = some q → Client.Spec.written q.client <+: Client.Spec.written q'.client →
      ∃ p', (s.peers.set i q')[c]? = some p' ∧ Client.Spec.written p.client <+: Client.Spec.written p'.client := by
    intro i q q' hq hw
    rw [List.getElem?_set]
    by_cases hic : i = c
    · subst hic
      rw [hp] at hq; injection hq with hq; subst hq
      rw [if_pos rfl, if_pos hlt]
      exact ⟨q', rfl, hw⟩
    · rw [if_neg hic]
      exact ⟨p, hp, List.prefix_refl _⟩
  cases e with
  | dial ccfg counter hello =>
    simp only [State.step] at h
    split at h
    · injection h with h; subst h
      exact ⟨p, by dsimp only; rw [List.getElem?_append_left hlt]; exact hp, List.prefix_refl _⟩
    · cases h
  | welcome i n =>
    simp only [State.step] at h
    split at h
    · rename_i q k hq hk
      split at h
      · split at h
        · injection h with h; subst h
          exact upd hq (List.prefix_refl _)
        · cases h
      · cases h
    · cases h
  | client i n e =>
    simp only [State.step] at h
    split at h
    · rename_i q k hq hk
      split at h
      · split at h
        · rename_i cl hcl
          injection h with h; subst h
          exact upd hq (written_grows hcl)
        · cases h
      · cases h
    · cases h
  | server n e =>
    simp only [State.step] at h
    split at h
    · split at h
      · injection h with h; subst h
        exact ⟨p, hp, List.prefix_refl _⟩
      · cases h
    · cases h

theorem courteous_before {cfg : Server.Config} {es : List Ev} {s s' : State} (h : s.run cfg es = some s') (hc : Spec.AllCourteous s') : Spec.AllCourteous s := by
  induction es generalizing s with
  | nil => simp only [State.run, Option.some.injEq] at h; subst h; exact hc
  | cons e es ih =>
    simp only [State.run] at h
    split at h
    · rename_i s1 h1
      intro c p hp
      obtain ⟨p', hp', hw⟩ := peers_grow h1 hp
      exact (ih h c p' hp').prefix hw
    · cases h

theorem hello_courteous {f : Frame} {fs : List Frame} (h : Server.Spec.Courteous fs) (hf : f.command = b!"CONNECT") : Server.Spec.Courteous (f :: fs) := by
  have hn : Server.Spec.opens f = none := by
    unfold Server.Spec.opens
    rw [if_neg (by rw [hf]; decide)]
  have hm : (f :: fs).filterMap Server.Spec.opens = fs.filterMap Server.Spec.opens := by rw [List.filterMap_cons, hn]
  refine ⟨by rw [hm]; exact h.queues, by rw [hm]; exact h.few, fun g hg hgc => ?_, ?_⟩
  · rcases List.mem_cons.1 hg with rfl | hg
    · rw [hf] at hgc; exact absurd hgc (by decide)
    · exact h.sends g hg hgc
  · rintro ⟨g, hg, hgc⟩ q hq hqc
    rcases List.mem_cons.1 hg with rfl | hg
    · rcases hgc with hgc | hgc <;> (rw [hf] at hgc; exact absurd hgc (by decide))
    · rcases List.mem_cons.1 hq with rfl | hq
      · rw [hf] at hqc; exact absurd hqc (by decide)
      · exact h.acks ⟨g, hg, hgc⟩ q hq hqc

/-- The event of the server in a step of the whole. -/
theorem server_event {cfg : Server.Config} {s s' : State} {e : Ev} (h : s.step cfg e = some s') (hc : s'.server.crashed ≠ s.server.crashed) :
    ∃ ev, s.server.step cfg ev = some s'.server := by
  cases e with
  | dial ccfg counter hello =>
    simp only [State.step] at h
    split at h
    · rename_i srv hs; injection h with h; subst h; exact ⟨_, hs⟩
    · cases h
  | welcome i n =>
    simp only [State.step] at h
    split at h
    · split at h
      · split at h
        · injection h with h; subst h; exact absurd rfl hc
        · cases h
      · cases h
    · cases h
  | client i n e =>
    simp only [State.step] at h
    split at h
    · split at h
      · split at h
        · injection h with h; subst h; exact absurd rfl hc
        · cases h
      · cases h
    · cases h
  | server n e =>
    simp only [State.step] at h
    split at h
    · split at h
      · rename_i srv hs; injection h with h; subst h; exact ⟨_, hs⟩
      · cases h
    · cases h

/-- **C89** (4). In every execution of server and clients in which the programs send courteous frames only, the server does not crash: the executions of C64 to C76 are then all executions. -/
theorem C89_reached {cfg : Server.Config} {es : List Ev} {s : State} (h : State.init.run cfg es = some s) (hsane : ∀ e ∈ es, Spec.Sane e) (hcl : Spec.AllCourteous s) :
    Spec.Reached cfg s := by
  have key : ∀ (es : List Ev) (s0 : State), Inv cfg s0 → s0.run cfg es = some s → (∀ e ∈ es, Spec.Sane e) → s.server.crashed = false := by
    intro es
    induction es with
    | nil => intro s0 hi h _; simp only [State.run, Option.some.injEq] at h; subst h; exact hi.alive
    | cons e es ih =>
      intro s0 hi h hsn
      have hcl0 : Spec.AllCourteous s0 := courteous_before h hcl
      simp only [State.run] at h
      split at h
      · rename_i s1 h1
        cases hc1 : s1.server.crashed with
        | false => exact ih s1 (inv_step hi h1 (hsn e (by simp)) hc1) h (fun e he => hsn e (by simp [he]))
        | true =>
          exfalso
          obtain ⟨ev, hev⟩ := server_event h1 (by rw [hc1, hi.alive]; simp)
          obtain ⟨c, k, hk, hbad⟩ := Server.crash_not_courteous (server_snoc hi.run hev) hc1
          have hii := (Server.sys_induction (P := fun _ => True) trivial (fun _ _ _ _ _ _ => trivial) _ _ hi.run hi.alive).1
          obtain ⟨hconns, _⟩ := Server.crash_cases hii (Server.addr_run hi.run hi.alive) hev hc1
          have hk0 : s0.server.conns[c]? = some k := by rw [← hconns]; exact hk
          obtain ⟨p, hp⟩ := hi.both hk0
          have hpi := hi.peer c p k hp hk0
          exact hbad ((hello_courteous (hcl0 c p hp) hpi.hello.1).prefix ((List.prefix_append _ _).trans hpi.up))
      · cases h
  exact ⟨⟨es, h, hsane⟩, key es _ (inv_init cfg) h hsane⟩

/-- The processor waits for nobody. -/
theorem no_jam {cfg : Server.Config} {s : State} (h : Spec.Reached cfg s) (hcl : Spec.AllCourteous s) (c : Nat) : ¬Server.Spec.ProcessorWaitsFor s.server c := by
  intro hw
  obtain ⟨k, hk, _⟩ := id hw
  have hi := inv_reached h
  obtain ⟨p, hp⟩ := hi.both hk
  have hpi := hi.peer c p k hp hk
  exact Server.C47_cause_partial cfg _ _ hi.run hi.alive c k hk
    ((hello_courteous (hcl c p hp) hpi.hello.1).modest ((List.prefix_append _ _).trans hpi.up)) hw

/-- **C89** (5). Where server and clients stop while all of them go on working, and the programs have sent courteous frames only, nothing is left to do; and every call of every program has returned, `Unsubscribe` apart
(C76 without the deadlock). -/
theorem C89_through {cfg : Server.Config} {es : List Ev} {s : State} (h : State.init.run cfg es = some s) (hsane : ∀ e ∈ es, Spec.Sane e) (hcl : Spec.AllCourteous s)
    (hs : Spec.Still cfg s) (hw : ∀ (c : Nat) (p : Peer) (k : Server.Conn), s.peers[c]? = some p → s.server.conns[c]? = some k → Spec.Working p k) :
    Spec.AtRest s.server ∧
    (∀ (c : Nat) (p : Peer) (k : Server.Conn), s.peers[c]? = some p → s.server.conns[c]? = some k → Spec.Through p k) ∧
    (∀ (c : Nat) (p : Peer), s.peers[c]? = some p → Client.Spec.Distinct p.client →
      ∀ (t : Nat) (th : Client.Thread), p.client.threads[t]? = some th → (∃ r, th.pc = .ret r) ∨ ∃ i o, th.call = .unsubscribe i o) := by
  have hr := C89_reached h hsane hcl
  have hn : ¬∃ c, Server.Spec.ProcessorWaitsFor s.server c ∧ Server.Spec.WaitsForProcessor s.server c := fun ⟨c, hc, _⟩ => no_jam hr hcl c hc
  obtain ⟨h1, h2⟩ := (C76_rest hr hs hw).resolve_left hn
  exact ⟨h1, h2, (C76_returned hr hs hw).resolve_left hn⟩

/-- **C89** (6). And if no subscription was given up or closed, and no message refused: the messages of a queue that the programs have got, and those stored in the queue, are exactly the messages for the queue that took effect, each of them once. -/
theorem C89_once {cfg : Server.Config} {es : List Ev} {s : State} (h : State.init.run cfg es = some s) (hsane : ∀ e ∈ es, Spec.Sane e) (hcl : Spec.AllCourteous s)
    (hs : Spec.Still cfg s) (hw : ∀ (c : Nat) (p : Peer) (k : Server.Conn), s.peers[c]? = some p → s.server.conns[c]? = some k → Spec.Working p k)
    (hd : ∀ p ∈ s.peers, Client.Spec.Distinct p.client ∧ Spec.Stays p ∧ Spec.Takes p ∧ ∀ b ∈ p.client.subs, b.state ≠ .closed) {d : Bytes} (hq : Server.Spec.IsQueue d) :
    (∃ ps : List (Frame × Server.Tag), ps.map (·.1) = s.peers.flatMap (Spec.gotFrom d) ∧ (∀ x ∈ ps, Server.Spec.CopyOf s.server x.2 x.1) ∧
      (ps.map (·.2) ++ Server.Spec.stored s.server d).Perm (Spec.allSent d s.server)) ∧ (Spec.allSent d s.server).Nodup := by
  have hr := C89_reached h hsane hcl
  exact (C76_once hr hs hw hd hq).resolve_left fun ⟨c, hc, _⟩ => no_jam hr hcl c hc

-- C89_reached, C89_through, C89_once: the execution of C76; one program sends with a receipt, another one has subscribed.
example : State.init.run Server.sampleCfg (BusyEx.begun ++ BusyEx.settle) = some (RestEx.after (BusyEx.begun ++ BusyEx.settle)) ∧ (∀ e ∈ BusyEx.begun ++ BusyEx.settle, Spec.Sane e) ∧
    Spec.AllCourteous (RestEx.after (BusyEx.begun ++ BusyEx.settle)) ∧ Spec.Still Server.sampleCfg (RestEx.after (BusyEx.begun ++ BusyEx.settle)) ∧
    (RestEx.after (BusyEx.begun ++ BusyEx.settle)).peers.map (fun p => ((Client.Spec.written p.client).map (·.command))) = [[b!"SEND", b!"SEND", b!"SEND"], [b!"SUBSCRIBE"]] := by
  refine ⟨RestEx.run_after (by decide +kernel), BusyEx.sane_settle, fun c p hp => ?_, BusyEx.still_settle, by decide +kernel⟩
  have h : ∀ p ∈ (RestEx.after (BusyEx.begun ++ BusyEx.settle)).peers, Server.courteous (Client.Spec.written p.client) = true := by decide +kernel
  exact Server.courteous_of (h p (List.mem_of_getElem? hp))

end Stomp.Joint
