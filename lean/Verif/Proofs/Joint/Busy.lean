import Verif.Proofs.Client.Voiceless
import Verif.Proofs.Joint.Inv
import Verif.Props.Client.Busy
import Verif.Props.Server.Busy
import Verif.Spec.JointBusy
/-! # What server and clients do by themselves comes to an end -/
namespace Stomp.Joint
open Stomp

/-- What is true of the parts of any execution, whatever the programs do, also when the server has crashed. -/
structure Parts (cfg : Server.Config) (s : State) : Prop where
  run : Server.Sys.init.run cfg s.events = some s.server
  peer : ∀ p ∈ s.peers, (Client.Sys.init p.counter).run p.cfg p.events = some p.client

theorem peers_run {s : State} {c : Nat} {q : Peer} (h : ∀ p ∈ s.peers, (Client.Sys.init p.counter).run p.cfg p.events = some p.client)
    (hq : (Client.Sys.init q.counter).run q.cfg q.events = some q.client) :
    ∀ p ∈ s.peers.set c q, (Client.Sys.init p.counter).run p.cfg p.events = some p.client := by
  intro x hx
  rcases List.mem_or_eq_of_mem_set hx with hx | rfl
  · exact h x hx
  · exact hq

theorem parts_step {cfg : Server.Config} {s s' : State} {e : Ev} (h : Parts cfg s) (hs : s.step cfg e = some s') : Parts cfg s' := by
  cases e with
  | dial ccfg counter hello =>
    simp only [State.step] at hs
    split at hs
    · rename_i srv hsrv
      injection hs with hs; subst hs
      refine ⟨server_snoc h.run hsrv, ?_⟩
      intro p hp
      rcases List.mem_append.1 hp with hp | hp
      · exact h.peer p hp
      · rw [List.mem_singleton.1 hp]; rfl
    · cases hs
  | welcome c n =>
    simp only [State.step] at hs
    split at hs
    · rename_i p k hp hk
      split at hs
      · split at hs
        · injection hs with hs; subst hs
          exact ⟨h.run, peers_run h.peer (h.peer p (List.mem_of_getElem? hp))⟩
        · cases hs
      · cases hs
    · cases hs
  | client c n e =>
    simp only [State.step] at hs
    split at hs
    · rename_i p k hp hk
      split at hs
      · split at hs
        · rename_i cl hcl
          injection hs with hs; subst hs
          exact ⟨h.run, peers_run h.peer (client_snoc (h.peer p (List.mem_of_getElem? hp)) hcl)⟩
        · cases hs
      · cases hs
    · cases hs
  | server n e =>
    simp only [State.step] at hs
    split at hs
    · split at hs
      · rename_i srv hsrv
        injection hs with hs; subst hs
        exact ⟨server_snoc h.run hsrv, h.peer⟩
      · cases hs
    · cases hs

theorem parts_run {cfg : Server.Config} : ∀ {es : List Ev} {s s' : State}, Parts cfg s → s.run cfg es = some s' → Parts cfg s'
  | [], s, s', h, hs => by cases hs; exact h
  | e :: es, s, s', h, hs => by
    simp only [State.run] at hs
    split at hs
    · exact parts_run (parts_step h (by assumption)) hs
    · cases hs

theorem parts_init (cfg : Server.Config) : Parts cfg State.init := ⟨rfl, by simp [State.init]⟩

/-! ## The measure -/

/-- A sum over the connections. -/
def over (s : State) (g : Peer → Server.Conn → Nat) : Nat :=
  ((List.range s.peers.length).map fun c => match s.peers[c]?, s.server.conns[c]? with
    | some p, some k => g p k
    | _, _ => 0).sum

theorem sum_le {l : List Nat} {f g : Nat → Nat} (h : ∀ c ∈ l, f c ≤ g c) : (l.map f).sum ≤ (l.map g).sum := by
  induction l with
  | nil => exact Nat.le_refl _
  | cons a l ih =>
    have h1 := h a (List.mem_cons_self ..)
    have h2 := ih (fun c hc => h c (List.mem_cons_of_mem _ hc))
    simp only [List.map_cons, List.sum_cons]; omega

theorem sum_lt {l : List Nat} {f g : Nat → Nat} (h : ∀ c ∈ l, f c ≤ g c) {c : Nat} (hc : c ∈ l) (hlt : f c < g c) : (l.map f).sum < (l.map g).sum := by
  induction l with
  | nil => cases hc
  | cons a l ih =>
    have h1 := h a (List.mem_cons_self ..)
    have h2 := sum_le (fun c hc => h c (List.mem_cons_of_mem _ hc) : ∀ c ∈ l, f c ≤ g c)
    simp only [List.map_cons, List.sum_cons]
    rcases List.mem_cons.1 hc with rfl | hc
    · omega
    · have := ih (fun c hc => h c (List.mem_cons_of_mem _ hc)) hc
      omega

/-- Client `c` changes. -/
theorem over_peer {s : State} {c : Nat} {p q : Peer} {k : Server.Conn} (hp : s.peers[c]? = some p) (hk : s.server.conns[c]? = some k) (g : Peer → Server.Conn → Nat) :
    (g q k ≤ g p k → over { s with peers := s.peers.set c q } g ≤ over s g) ∧ (g q k < g p k → over { s with peers := s.peers.set c q } g < over s g) := by
  have hlt := (List.getElem?_eq_some_iff.1 hp).1
  have hself : (s.peers.set c q)[c]? = some q := by rw [List.getElem?_set]; simp [hlt]
  have key : g q k ≤ g p k → ∀ j ∈ List.range s.peers.length, (match (s.peers.set c q)[j]?, s.server.conns[j]? with | some p, some k => g p k | _, _ => 0) ≤
      (match s.peers[j]?, s.server.conns[j]? with | some p, some k => g p k | _, _ => 0) := by
    intro hle j _
    by_cases hj : c = j
    · subst hj; rw [hself, hp, hk]; exact hle
    · rw [List.getElem?_set_ne hj]; exact Nat.le_refl _
  unfold over
  simp only [List.length_set]
  refine ⟨fun hle => sum_le (key hle), fun h => sum_lt (key (Nat.le_of_lt h)) (List.mem_range.2 hlt) ?_⟩
  rw [hself, hp, hk]; exact h

/-- The server changes, and what counts of the connections does not get more. -/
theorem over_server {s s' : State} (hp : s'.peers = s.peers) (g : Peer → Server.Conn → Nat)
    (h : ∀ (c : Nat) (p : Peer) (k' : Server.Conn), s.peers[c]? = some p → s'.server.conns[c]? = some k' → ∃ k, s.server.conns[c]? = some k ∧ g p k' ≤ g p k) : over s' g ≤ over s g ∧
    ∀ (c : Nat) (p : Peer) (k k' : Server.Conn), s.peers[c]? = some p → s.server.conns[c]? = some k → s'.server.conns[c]? = some k' → g p k' < g p k → over s' g < over s g := by
  have key : ∀ j ∈ List.range s.peers.length, (match s.peers[j]?, s'.server.conns[j]? with | some p, some k => g p k | _, _ => 0) ≤
      (match s.peers[j]?, s.server.conns[j]? with | some p, some k => g p k | _, _ => 0) := by
    intro j _
    cases hpj : s.peers[j]? with
    | none => exact Nat.le_refl _
    | some p =>
      cases hkj : s'.server.conns[j]? with
      | none => exact Nat.zero_le _
      | some k' =>
        obtain ⟨k, hk, hle⟩ := h j p k' hpj hkj
        rw [hk]; exact hle
  unfold over
  rw [hp]
  refine ⟨sum_le key, fun c p k k' h1 h2 h3 h4 => sum_lt key (List.mem_range.2 (List.getElem?_eq_some_iff.1 h1).1) ?_⟩
  rw [h1, h2, h3]; exact h4

/-- Clients that wait for the answer to their CONNECT frame. -/
def State.unanswered (s : State) : Nat := (s.peers.map fun p => if p.welcome.isSome then 0 else 1).sum
def State.callers (s : State) : Nat := over s fun p _ => p.client.callers
/-- On the way to the server (in bytes, or in frames read: less than one per byte). -/
def State.upwards (s : State) : Nat := over s fun p k => (wireBytes p.up).length + 1 - takenIn k
/-- On the way to the clients. -/
def State.downwards (s : State) : Nat := over s fun p k => (wireBytes (down k)).length + 1 - p.reads
def State.phase (s : State) : Nat := over s fun p _ => p.client.loop.phase
def State.pending (s : State) : Nat := over s fun p _ => p.client.pending
def State.alive (s : State) : Nat := if s.server.crashed then 0 else 1

/-- One thing after the other gets less. -/
inductive State.Less (s s' : State) : Prop
  | alive (h : s'.alive < s.alive)
  | answer (h0 : s'.alive ≤ s.alive) (h : s'.unanswered < s.unanswered)
  | callers (h0 : s'.alive ≤ s.alive) (h1 : s'.unanswered ≤ s.unanswered) (h : s'.callers < s.callers)
  | up (h0 : s'.alive ≤ s.alive) (h1 : s'.unanswered ≤ s.unanswered) (h2 : s'.callers ≤ s.callers) (h : s'.upwards < s.upwards)
  | server (h0 : s'.alive ≤ s.alive) (h1 : s'.unanswered ≤ s.unanswered) (h2 : s'.callers ≤ s.callers) (h3 : s'.upwards ≤ s.upwards) (h : s.server.Less s'.server)
  | down (h0 : s'.alive ≤ s.alive) (h1 : s'.unanswered ≤ s.unanswered) (h2 : s'.callers ≤ s.callers) (h3 : s'.upwards ≤ s.upwards) (h4 : s'.server = s.server) (h : s'.downwards < s.downwards)
  | phase (h0 : s'.alive ≤ s.alive) (h1 : s'.unanswered ≤ s.unanswered) (h2 : s'.callers ≤ s.callers) (h3 : s'.upwards ≤ s.upwards) (h4 : s'.server = s.server) (h5 : s'.downwards ≤ s.downwards)
      (h : s'.phase < s.phase)
  | pending (h0 : s'.alive ≤ s.alive) (h1 : s'.unanswered ≤ s.unanswered) (h2 : s'.callers ≤ s.callers) (h3 : s'.upwards ≤ s.upwards) (h4 : s'.server = s.server) (h5 : s'.downwards ≤ s.downwards)
      (h6 : s'.phase ≤ s.phase) (h : s'.pending < s.pending)

theorem joint_less_wf : WellFounded (fun s' s : State => s.Less s') := by
  let r : Nat × Nat × Nat × Nat × Server.Sys × Nat × Nat × Nat → Nat × Nat × Nat × Nat × Server.Sys × Nat × Nat × Nat → Prop :=
    Prod.Lex (· < ·) (Prod.Lex (· < ·) (Prod.Lex (· < ·) (Prod.Lex (· < ·) (Prod.Lex (fun s' s => s.Less s') (Prod.Lex (· < ·) (Prod.Lex (· < ·) (· < ·)))))))
  refine Subrelation.wf (r := InvImage r (fun s : State => (s.alive, s.unanswered, s.callers, s.upwards, s.server, s.downwards, s.phase, s.pending))) ?_ (InvImage.wf _ ?_)
  · intro s' s h
    unfold InvImage
    have le : ∀ {β : Type} {r : β → β → Prop} {a' a : Nat} {x y : β}, a' ≤ a → r x y → Prod.Lex (· < ·) r (a', x) (a, y) := by
      intro β r a' a x y h1 h2
      rcases Nat.lt_or_eq_of_le h1 with h1 | rfl
      · exact .left _ _ h1
      · exact .right _ h2
    have eq : ∀ {β : Type} {r : β → β → Prop} {a' a : Server.Sys} {x y : β}, a' = a → r x y → Prod.Lex (fun s' s : Server.Sys => s.Less s') r (a', x) (a, y) := by
      intro β r a' a x y h1 h2
      subst h1; exact .right _ h2
    cases h with
    | alive h => exact .left _ _ h
    | answer h0 h => exact le h0 (.left _ _ h)
    | callers h0 h1 h => exact le h0 (le h1 (.left _ _ h))
    | up h0 h1 h2 h => exact le h0 (le h1 (le h2 (.left _ _ h)))
    | server h0 h1 h2 h3 h => exact le h0 (le h1 (le h2 (le h3 (.left _ _ h))))
    | down h0 h1 h2 h3 h4 h => exact le h0 (le h1 (le h2 (le h3 (eq h4 (.left _ _ h)))))
    | phase h0 h1 h2 h3 h4 h5 h => exact le h0 (le h1 (le h2 (le h3 (eq h4 (le h5 (.left _ _ h))))))
    | pending h0 h1 h2 h3 h4 h5 h6 h => exact le h0 (le h1 (le h2 (le h3 (eq h4 (le h5 (le h6 h))))))
  · have w : WellFounded (fun a b : Nat => a < b) := Nat.lt_wfRel.wf
    exact (Prod.lex ⟨_, w⟩ (Prod.lex ⟨_, w⟩ (Prod.lex ⟨_, w⟩ (Prod.lex ⟨_, w⟩ (Prod.lex ⟨_, Server.less_wf⟩ (Prod.lex ⟨_, w⟩ (Prod.lex ⟨_, w⟩ ⟨_, w⟩))))))).wf

theorem readAllAux_length (n : Nat) (b : Bytes) : (readAllAux n b).1.length ≤ n := by
  induction n generalizing b with
  | zero => exact Nat.le_refl _
  | succ n ih =>
    unfold readAllAux
    split
    · exact Nat.zero_le _
    · exact Nat.succ_le_succ (ih _)
    · exact Nat.succ_le_succ (ih _)

theorem legible_length (l : List (Option Frame)) (n : Nat) : (legible l n).length ≤ (wireBytes l).length + 1 := by
  unfold legible readAll
  refine Nat.le_trans (readAllAux_length _ _) ?_
  rw [List.length_take]; omega

/-- Each step server and clients make by themselves, they make towards the end. -/
theorem joint_less {cfg : Server.Config} {s s' : State} {e : Ev} (hi : Parts cfg s) (ho : Spec.Own e) (hs : s.step cfg e = some s') : s.Less s' := by
  cases e with
  | dial => exact ho.elim
  | welcome c n =>
    simp only [State.step] at hs
    split at hs
    · rename_i p k hp hk
      split at hs
      · rename_i w hw _
        split at hs
        · injection hs with hs; subst hs
          refine .answer (Nat.le_refl _) ?_
          have := Server.sum_map_set (fun p : Peer => if p.welcome.isSome then 0 else 1) s.peers c p { p with welcome := some w } hp
          simp only [hw, Option.isSome_none, Option.isSome_some, Bool.false_eq_true, if_true, if_false] at this
          show ((s.peers.set c _).map _).sum < _
          unfold State.unanswered
          omega
        · cases hs
      · cases hs
    · cases hs
  | client c n e =>
    simp only [State.step] at hs
    split at hs
    · rename_i p k hp hk
      split at hs
      · rename_i hcan
        split at hs
        · rename_i cl hcl
          injection hs with hs; subst hs
          generalize hq : ({ p with client := cl, events := p.events ++ [e] } : Peer) = q
          have hqc : q.client = cl := by rw [← hq]
          have hqh : q.hello = p.hello := by rw [← hq]
          have hqw : q.welcome = p.welcome := by rw [← hq]
          have hun : State.unanswered { s with peers := s.peers.set c q } ≤ s.unanswered := by
            have := Server.sum_map_set (fun p : Peer => if p.welcome.isSome then 0 else 1) s.peers c p q hp
            simp only [hqw] at this
            show ((s.peers.set c _).map _).sum ≤ (s.peers.map _).sum
            omega
          have upd := fun g => over_peer (q := q) hp hk g
          have hup : ∀ l, cl.trace = p.client.trace ++ l → Client.waveIn l = [] → State.upwards { s with peers := s.peers.set c q } ≤ s.upwards := by
            intro l hl hw
            refine (upd _).1 ?_
            have : q.up = p.up := by
              rw [up_eq, up_eq, hqc, hqh]
              unfold Client.Spec.stream
              rw [hl, List.filterMap_append]
              refine congrArg (some p.hello :: ·) ?_
              exact (congrArg (_ ++ ·) hw).trans (List.append_nil _)
            rw [this]; exact Nat.le_refl _
          by_cases hnet : ∃ x, e = .net x
          · obtain ⟨x, rfl⟩ := hnet
            have htr : cl.trace = p.client.trace ++ [.read x] := by
              rcases Client.read_or_not hcl with ⟨y, h1, h2⟩ | ⟨h1, _⟩
              · cases h1; exact h2
              · exact absurd rfl (h1 x)
            have hcal : cl.callers = p.client.callers := by
              unfold Client.Sys.step at hcl
              split at hcl
              · cases hcl
              · dsimp only at hcl
                split at hcl
                · cases hcl
                · split at hcl
                  · injection hcl with hcl; subst hcl; rfl
                  · cases hcl
            refine .down (Nat.le_refl _) hun ((upd _).1 (by rw [hqc, hcal]; exact Nat.le_refl _)) (hup _ htr rfl) rfl ((upd _).2 ?_)
            have hr : q.reads = p.reads + 1 := by
              rw [reads_eq, reads_eq, hqc, htr, Client.readIn_append, List.length_append]; rfl
            have hc : p.can k n (.net x) = true := (Bool.and_eq_true_iff.1 hcan).2
            unfold Peer.can at hc
            have hc := (List.getElem?_eq_some_iff.1 (of_decide_eq_true hc)).1
            have := legible_length (down k) n
            rw [hr]; omega
          · have ho : Client.Spec.Own e := by
              cases e <;> first | exact ho | exact absurd ⟨_, rfl⟩ hnet
            have hl := Client.client_own_step (hi.peer p (List.mem_of_getElem? hp)) ho hcl
            by_cases hlt : cl.callers < p.client.callers
            · exact .callers (Nat.le_refl _) hun ((upd _).2 (by rw [hqc]; exact hlt))
            · obtain ⟨l, htr, hrd, hwv⟩ := (Client.own_mute ho hcl).resolve_right hlt
              have hdown : State.downwards { s with peers := s.peers.set c q } ≤ s.downwards := by
                refine (upd _).1 ?_
                have hr : q.reads = p.reads := by
                  rw [reads_eq, reads_eq, hqc, htr, Client.readIn_append, hrd, List.append_nil]
                rw [hr]; exact Nat.le_refl _
              cases hl with
              | callers h => exact absurd h hlt
              | phase h1 h =>
                exact .phase (Nat.le_refl _) hun ((upd _).1 (by rw [hqc]; exact h1)) (hup _ htr hwv) rfl hdown ((upd _).2 (by rw [hqc]; exact h))
              | pending h1 h2 h =>
                exact .pending (Nat.le_refl _) hun ((upd _).1 (by rw [hqc]; exact h1)) (hup _ htr hwv) rfl hdown ((upd _).1 (by rw [hqc]; exact h2)) ((upd _).2 (by rw [hqc]; exact h))
        · cases hs
      · cases hs
    · cases hs
  | server n e =>
    simp only [State.step] at hs
    split at hs
    · rename_i hcan
      split at hs
      · rename_i srv hsrv
        injection hs with hs; subst hs
        have ha := step_alive hsrv
        by_cases hc' : srv.crashed = true
        · refine .alive ?_
          unfold State.alive
          rw [ha]; simp [hc']
        have hc' : srv.crashed = false := by simpa using hc'
        have hal : State.alive { s with server := srv, events := s.events ++ [e] } ≤ s.alive := by unfold State.alive; rw [ha, hc']; exact Nat.le_refl _
        have hrun := server_snoc hi.run hsrv
        have hst := server_sys hi.run ha hsrv hc'
        have hlen : srv.conns.length = s.server.conns.length := by
          rw [conns_length hst, if_neg (by rintro rfl; exact absurd hcan (by simp [State.can]))]; rfl
        have hconn : ∀ (c : Nat) (k' : Server.Conn), srv.conns[c]? = some k' → ∃ k, s.server.conns[c]? = some k := by
          intro c k' hk'
          exact ⟨_, List.getElem?_eq_getElem (by rw [← hlen]; exact (List.getElem?_eq_some_iff.1 hk').1)⟩
        have htaken : ∀ (c : Nat) (k k' : Server.Conn), s.server.conns[c]? = some k → srv.conns[c]? = some k' →
            takenIn k ≤ takenIn k' ∧ (∀ f, e = .conn c (.recv f) → takenIn k' = takenIn k + 1) := by
          intro c k k' hk hk'
          have h1 := congrArg List.length (Server.received_run hi.run ha hk)
          have h2 := congrArg List.length (Server.received_run hrun hc' hk')
          rw [receivedBy_snoc, List.length_append] at h2
          unfold takenIn
          rw [List.length_append] at h1 h2
          rw [h2, h1]
          refine ⟨Nat.le_add_right _ _, ?_⟩
          rintro f rfl
          simp
        have hcal : State.callers { s with server := srv, events := s.events ++ [e] } ≤ s.callers := by
          refine (over_server (s := s) (s' := { s with server := srv, events := s.events ++ [e] }) rfl (fun p _ => p.client.callers) ?_).1
          intro c p k' _ hk'
          obtain ⟨k, hk⟩ := hconn c k' hk'
          exact ⟨k, hk, Nat.le_refl _⟩
        have hup := over_server (s := s) (s' := { s with server := srv, events := s.events ++ [e] }) rfl (fun p k => (wireBytes p.up).length + 1 - takenIn k) (by
          intro c p k' _ hk'
          obtain ⟨k, hk⟩ := hconn c k' hk'
          have := (htaken c k k' hk hk').1
          exact ⟨k, hk, by omega⟩)
        by_cases hrecv : ∃ c f, e = .conn c (.recv f)
        · obtain ⟨c, f, rfl⟩ := hrecv
          simp only [State.can] at hcan
          split at hcan
          · rename_i p k hp hk
            refine .up hal (Nat.le_refl _) hcal ?_
            have hlt : c < srv.conns.length := by rw [hlen]; exact (List.getElem?_eq_some_iff.1 hk).1
            have hk' : srv.conns[c]? = some srv.conns[c] := List.getElem?_eq_getElem hlt
            refine hup.2 c p k _ hp hk hk' ?_
            have h1 := (htaken c k _ hk hk').2 f rfl
            have h2 := (List.getElem?_eq_some_iff.1 (of_decide_eq_true hcan)).1
            have h3 := List.length_filterMap_le id (legible p.up n)
            have h4 := legible_length p.up n
            rw [h1]; omega
          · cases hcan
        · have ho : Server.Spec.Own e := by
            cases e with
            | conn c ce => cases ce <;> first | exact ho | exact absurd ⟨_, _, rfl⟩ hrecv
            | _ => exact ho
          rcases Server.own_step hi.run ho hsrv with h | h
          · rw [hc'] at h; cases h
          · exact .server hal (Nat.le_refl _) hcal hup.1 h
      · cases hs
    · cases hs

end Stomp.Joint
