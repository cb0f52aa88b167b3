import Verif.Proofs.Client.NoRead
import Verif.Proofs.Client.Read
import Verif.Proofs.Server.Taken
import Verif.Props.Confirmed
import Verif.Spec.Joint
/-! # Executions of server and clients together: what holds of the parts -/
namespace Stomp.Joint
open Stomp

theorem conns_length {cfg : Server.Config} {s s' : Server.Sys} {e : Server.Sys.Ev} (h : Server.SysStep cfg s e s') :
    s'.conns.length = s.conns.length + (if e = .accept then 1 else 0) := by
  cases h <;> simp

/-- What is written stays written. -/
theorem out_grows {cfg : Server.Config} {es : List Server.Sys.Ev} {s s' : Server.Sys} {e : Server.Sys.Ev} (h : Server.Sys.init.run cfg es = some s) (hc : s.crashed = false)
    (hs : Server.SysStep cfg s e s') {c : Nat} {k : Server.Conn} (hk : s.conns[c]? = some k) : ∃ k', s'.conns[c]? = some k' ∧ k.out <+: k'.out := by
  have hl := conns_length hs
  have hlt := (List.getElem?_eq_some_iff.1 hk).1
  have hk' : s'.conns[c]? = some s'.conns[c] := List.getElem?_eq_getElem (by omega)
  refine ⟨_, hk', ?_⟩
  obtain ⟨ces, hr, henv⟩ := Server.conn_run h hc hk
  have hgm := Server.run_inv (P := fun _ => True) (fun _ _ _ _ _ _ _ _ => trivial) ces k henv trivial hr
  rcases Server.conns_evol hs hk' with ⟨h1, _⟩ | ⟨k0, h0, ⟨ce, he, hcs⟩ | hO⟩
  · rw [hk] at h1; cases h1
  · rw [hk] at h0; injection h0 with h0; subst h0
    rcases Server.out_step hgm.1 hgm.2.1 (Server.step_of _ _ _ _ hcs) with ⟨h1, _⟩ | ⟨_, _, _, new, h1, _⟩ | ⟨_, _, h1, _⟩ | ⟨_, _, m, a, _, _, h1⟩
    all_goals rw [h1]
    · exact List.prefix_refl _
    all_goals exact List.prefix_append ..
  · rw [hk] at h0; injection h0 with h0; subst h0
    rw [hO.out]; exact List.prefix_refl _

theorem legible_prefix {l : List (Option Frame)} (h : ∀ f, some f ∈ l → Stomp.Spec.WellFormed f) (n : Nat) : legible l n <+: l := by
  obtain ⟨k, hk, _⟩ := C04_stream_cut l h n
  unfold legible wireBytes
  have hk : readAll (List.take n (l.map writeFrame).flatten) = (l.take k, .eof) := hk
  rw [hk]
  exact List.take_prefix ..

theorem prefix_snoc {α : Type} {a b : List α} {x : α} (h : a <+: b) (hx : b[a.length]? = some x) : a ++ [x] <+: b := by
  obtain ⟨c, rfl⟩ := h
  rw [List.getElem?_append_right (Nat.le_refl _), Nat.sub_self] at hx
  cases c with
  | nil => cases hx
  | cons y c =>
    simp at hx; subst hx
    exact ⟨c, by simp⟩

theorem up_eq (p : Peer) : p.up = some p.hello :: Client.Spec.stream p.client := rfl

theorem up_frames (p : Peer) : p.up.filterMap id = p.hello :: Client.Spec.written p.client := by
  rw [up_eq, ← stream_written]; rfl

theorem reads_eq (p : Peer) : p.reads = (Client.readIn p.client.trace).length := rfl

/-- What is true of a client and its connection. -/
structure PeerInv (p : Peer) (k : Server.Conn) : Prop where
  run : (Client.Sys.init p.counter).run p.cfg p.events = some p.client
  hello : p.hello.command = b!"CONNECT" ∧ Stomp.Spec.WellFormed p.hello
  sound : ∀ x, .call x ∈ p.events → Client.Spec.Sound x
  up : k.hist ++ k.inq <+: p.hello :: Client.Spec.written p.client
  fresh : p.welcome = none → p.events = []
  down : p.welcome.toList.map some ++ Client.readIn p.client.trace <+: down k
  greeted : ∀ w, p.welcome = some w → w.command = b!"CONNECTED"

structure Inv (cfg : Server.Config) (s : State) : Prop where
  run : Server.Sys.init.run cfg s.events = some s.server
  alive : s.server.crashed = false
  len : s.peers.length = s.server.conns.length
  peer : ∀ (c : Nat) (p : Peer) (k : Server.Conn), s.peers[c]? = some p → s.server.conns[c]? = some k → PeerInv p k

theorem Inv.both {cfg : Server.Config} {s : State} (h : Inv cfg s) {c : Nat} {k : Server.Conn} (hk : s.server.conns[c]? = some k) : ∃ p, s.peers[c]? = some p := by
  have := (List.getElem?_eq_some_iff.1 hk).1
  exact ⟨_, List.getElem?_eq_getElem (by rw [h.len]; exact this)⟩

theorem Inv.conn {cfg : Server.Config} {s : State} (h : Inv cfg s) {c : Nat} {p : Peer} (hp : s.peers[c]? = some p) : ∃ k, s.server.conns[c]? = some k := by
  have := (List.getElem?_eq_some_iff.1 hp).1
  exact ⟨_, List.getElem?_eq_getElem (by rw [← h.len]; exact this)⟩

theorem PeerInv.up_wf {p : Peer} {k : Server.Conn} (h : PeerInv p k) : ∀ f, some f ∈ p.up → Stomp.Spec.WellFormed f := by
  intro f hf
  rcases List.mem_cons.1 hf with hf | hf
  · injection hf with hf; rw [hf]; exact h.hello.2
  · exact Client.stream_wf h.run h.sound f hf

theorem Inv.in_wf {cfg : Server.Config} {s : State} (h : Inv cfg s) : ∀ c, c < s.server.conns.length → ∀ f ∈ Server.Spec.receivedBy c s.events, Stomp.Spec.WellFormed f := by
  intro c hc f hf
  have hk : s.server.conns[c]? = some s.server.conns[c] := List.getElem?_eq_getElem hc
  obtain ⟨p, hp⟩ := h.both hk
  have hi := h.peer c p _ hp hk
  rw [← Server.received_run h.run h.alive hk] at hf
  have h1 := hi.up.subset hf
  rw [← up_frames] at h1
  obtain ⟨x, hx, hxf⟩ := List.mem_filterMap.1 h1
  exact hi.up_wf f (by rw [← show x = some f from hxf]; exact hx)

theorem Inv.down_wf {cfg : Server.Config} {s : State} (h : Inv cfg s) {c : Nat} {k : Server.Conn} (hk : s.server.conns[c]? = some k) :
    ∀ f, some f ∈ down k → Stomp.Spec.WellFormed f := Server.out_wf h.run h.alive h.in_wf hk

theorem server_snoc {cfg : Server.Config} {es : List Server.Sys.Ev} {s0 s s' : Server.Sys} {e : Server.Sys.Ev} (h : s0.run cfg es = some s) (hs : s.step cfg e = some s') :
    s0.run cfg (es ++ [e]) = some s' := by
  induction es generalizing s0 with
  | nil => simp only [Server.Sys.run, Option.some.injEq] at h; subst h; simp only [List.nil_append, Server.Sys.run, hs]
  | cons e0 es ih =>
    simp only [Server.Sys.run] at h
    simp only [List.cons_append, Server.Sys.run]
    split at h
    · cases h
    · exact ih h

theorem client_snoc {cfg : Client.Cfg} {es : List Client.Ev} {s0 s s' : Client.Sys} {e : Client.Ev} (h : s0.run cfg es = some s) (hs : s.step cfg e = some s') :
    s0.run cfg (es ++ [e]) = some s' := by
  rw [Client.sys_run_append, h]
  show (s.step cfg e).bind _ = _
  rw [hs]; rfl

theorem server_sys {cfg : Server.Config} {es : List Server.Sys.Ev} {s s' : Server.Sys} {e : Server.Sys.Ev} (h : Server.Sys.init.run cfg es = some s) (hc : s.crashed = false)
    (hs : s.step cfg e = some s') (hc' : s'.crashed = false) : Server.SysStep cfg s e s' := by
  have hi := (Server.sys_induction (P := fun _ => True) trivial (fun _ _ _ _ _ _ => trivial) es s h hc).1
  exact (Server.sys_step hi.refs hs).2.resolve_left (by rw [hc']; decide)

theorem step_alive {cfg : Server.Config} {s s' : Server.Sys} {e : Server.Sys.Ev} (h : s.step cfg e = some s') : s.crashed = false := by
  unfold Server.Sys.step at h
  split at h
  · cases h
  · rename_i hc; simpa using hc

theorem receivedBy_snoc (c : Nat) (es : List Server.Sys.Ev) (e : Server.Sys.Ev) :
    Server.Spec.receivedBy c (es ++ [e]) = Server.Spec.receivedBy c es ++ (match e with | .conn j (.recv f) => if j = c then [f] else [] | _ => []) := by
  unfold Server.Spec.receivedBy
  rw [List.flatMap_append]
  congr 1
  rw [List.flatMap_cons, List.flatMap_nil, List.append_nil]
  cases e with
  | conn j ce => cases ce <;> rfl
  | _ => rfl

theorem written_grows {cfg : Client.Cfg} {s s' : Client.Sys} {e : Client.Ev} (h : s.step cfg e = some s') : Client.Spec.written s <+: Client.Spec.written s' := by
  obtain ⟨l, hl⟩ := (Client.ext_step (Client.step_cases h).2).trace
  unfold Client.Spec.written
  rw [hl, List.filterMap_append]
  exact List.prefix_append ..

theorem inv_step {cfg : Server.Config} {s s' : State} {e : Ev} (h : Inv cfg s) (hs : s.step cfg e = some s') (hsane : Spec.Sane e) (hc' : s'.server.crashed = false) : Inv cfg s' := by
  cases e with
  | dial ccfg counter hello =>
    simp only [State.step] at hs
    split at hs
    · rename_i srv hsrv
      injection hs with hs; subst hs
      have hst := server_sys h.run h.alive hsrv hc'
      refine ⟨server_snoc h.run hsrv, hc', ?_, ?_⟩
      · show (s.peers ++ [_]).length = _
        rw [conns_length hst, List.length_append, h.len]; rfl
      · intro c p k hp hk
        have hp : (s.peers ++ [_])[c]? = some p := hp
        have hsr : srv = { s.server with conns := s.server.conns ++ [Server.Conn.init s.server.conns.length] } := by cases hst; rfl
        subst hsr
        have hk : (s.server.conns ++ [_])[c]? = some k := hk
        by_cases hlt : c < s.peers.length
        · rw [List.getElem?_append_left hlt] at hp
          rw [List.getElem?_append_left (by rw [← h.len]; exact hlt)] at hk
          exact h.peer c p k hp hk
        · have hcl : c = s.peers.length := by
            have := (List.getElem?_eq_some_iff.1 hp).1
            simp at this; omega
          rw [List.getElem?_append_right (by omega), hcl, Nat.sub_self] at hp
          rw [List.getElem?_append_right (by have := h.len; omega), hcl, h.len, Nat.sub_self] at hk
          simp at hp hk
          subst hp hk
          exact ⟨rfl, hsane, by simp, by simp [Server.Conn.init], fun _ => rfl, by simp [Client.readIn, Client.Sys.init], by simp⟩
    · cases hs
  | welcome c n =>
    simp only [State.step] at hs
    split at hs
    · rename_i p k hp hk
      split at hs
      · rename_i w hw hl
        split at hs
        · rename_i hcmd
          injection hs with hs; subst hs
          refine ⟨h.run, hc', by simpa using h.len, ?_⟩
          intro j q k' hq hk'
          replace hk' : s.server.conns[j]? = some k' := hk'
          replace hq : (s.peers.set c _)[j]? = some q := hq
          rw [List.getElem?_set] at hq
          split at hq
          · rename_i hj; subst hj
            split at hq
            · injection hq with hq; subst hq
              rw [hk] at hk'; injection hk' with hk'; subst hk'
              have hi := h.peer c p k hp hk
              refine ⟨hi.run, hi.hello, hi.sound, hi.up, by simp, ?_, fun w' e => by injection e with e; subst e; exact hcmd⟩
              have hev := hi.fresh hw
              have hcl : p.client = Client.Sys.init p.counter := by
                have := hi.run; rw [hev] at this; injection this with this; exact this.symm
              show [some w] ++ Client.readIn p.client.trace <+: down k
              rw [hcl]
              have hpre := legible_prefix (h.down_wf hk) n
              cases hx : legible (down k) n with
              | nil => rw [hx] at hl; cases hl
              | cons a l =>
                rw [hx] at hl hpre
                injection hl with hl; subst hl
                exact (show [some w] ++ [] <+: some w :: l from ⟨l, by simp⟩).trans hpre
            · cases hq
          · exact h.peer j q k' hq hk'
        · cases hs
      · cases hs
    · cases hs
  | client c n e =>
    simp only [State.step] at hs
    split at hs
    · rename_i p k hp hk
      split at hs
      · rename_i hcan
        split at hs
        · rename_i cl hcl
          injection hs with hs; subst hs
          refine ⟨h.run, hc', by simpa using h.len, ?_⟩
          intro j q k' hq hk'
          replace hk' : s.server.conns[j]? = some k' := hk'
          replace hq : (s.peers.set c _)[j]? = some q := hq
          rw [List.getElem?_set] at hq
          split at hq
          · rename_i hj; subst hj
            split at hq
            · injection hq with hq; subst hq
              rw [hk] at hk'; injection hk' with hk'; subst hk'
              have hi := h.peer c p k hp hk
              rw [Bool.and_eq_true] at hcan
              obtain ⟨w, hw⟩ := Option.isSome_iff_exists.1 hcan.1
              refine ⟨client_snoc hi.run hcl, hi.hello, ?_, ?_, ?_, ?_, hi.greeted⟩
              · intro x hx
                have hx : .call x ∈ p.events ++ [e] := hx
                rcases List.mem_append.1 hx with hx | hx
                · exact hi.sound x hx
                · rw [List.mem_singleton] at hx; subst hx; exact hsane
              · obtain ⟨z, hz⟩ := written_grows hcl
                refine hi.up.trans ⟨z, ?_⟩
                rw [← hz]; rfl
              · intro hn
                have hn : p.welcome = none := hn
                rw [hw] at hn; cases hn
              · show p.welcome.toList.map some ++ Client.readIn cl.trace <+: down k
                have hd := hi.down
                rcases Client.read_or_not hcl with ⟨x, rfl, ht⟩ | ⟨_, ⟨l, ht, hl, _⟩ | ⟨r, f, ht, _⟩⟩
                · have hx := hcan.2
                  simp only [Peer.can, decide_eq_true_eq] at hx
                  have hx : (down k)[1 + p.reads]? = some x := by
                    obtain ⟨z, hz⟩ := legible_prefix (h.down_wf hk) n
                    rw [← hz, List.getElem?_append_left (List.getElem?_eq_some_iff.1 hx).1]; exact hx
                  rw [ht, Client.readIn_append, ← List.append_assoc]
                  refine prefix_snoc hd ?_
                  rw [hw] at hd ⊢
                  rw [reads_eq] at hx
                  simpa [Nat.add_comm] using hx
                · rw [ht, Client.readIn_append, hl, List.append_nil]; exact hd
                · rw [ht, Client.readIn_append, show Client.readIn [Client.Obs.taken r, .sent f] = [] from rfl, List.append_nil]; exact hd
            · cases hq
          · exact h.peer j q k' hq hk'
        · cases hs
      · cases hs
    · cases hs
  | server n e =>
    simp only [State.step] at hs
    split at hs
    · rename_i hcan
      split at hs
      · rename_i srv hsrv
        injection hs with hs; subst hs
        have hst := server_sys h.run h.alive hsrv hc'
        have hrun := server_snoc h.run hsrv
        have hne : e ≠ .accept := by rintro rfl; simp [State.can] at hcan
        refine ⟨hrun, hc', ?_, ?_⟩
        · show s.peers.length = _
          rw [conns_length hst, if_neg hne, h.len]; rfl
        · intro c p k' hp hk'
          replace hp : s.peers[c]? = some p := hp
          obtain ⟨k, hk⟩ := h.conn hp
          have hi := h.peer c p k hp hk
          obtain ⟨k2, hk2, hout⟩ := out_grows h.run h.alive hst hk
          replace hk' : srv.conns[c]? = some k' := hk'
          rw [hk'] at hk2; injection hk2 with hk2; subst hk2
          refine ⟨hi.run, hi.hello, hi.sound, ?_, hi.fresh, hi.down.trans (hout.map _), hi.greeted⟩
          rw [Server.received_run hrun hc' hk', receivedBy_snoc, ← Server.received_run h.run h.alive hk]
          split
          · rename_i j f
            split
            · rename_i hj; subst hj
              refine prefix_snoc hi.up ?_
              simp only [State.can, hp, hk, decide_eq_true_eq] at hcan
              rw [← up_frames]
              obtain ⟨z, hz⟩ := (legible_prefix hi.up_wf n).filterMap id
              rw [← hz, List.length_append]
              show (_ ++ z)[takenIn k]? = some f
              rw [List.getElem?_append_left (List.getElem?_eq_some_iff.1 hcan).1]
              exact hcan
            · rw [List.append_nil]; exact hi.up
          · rw [List.append_nil]; exact hi.up
      · cases hs
    · cases hs

theorem inv_init (cfg : Server.Config) : Inv cfg State.init := ⟨rfl, rfl, rfl, by intro c p k hp; simp [State.init] at hp⟩

theorem step_stays {cfg : Server.Config} {s s' : State} {e : Ev} (hs : s.step cfg e = some s') (hc : s'.server.crashed = false) : s.server.crashed = false := by
  cases e with
  | dial _ _ _ =>
    simp only [State.step] at hs
    split at hs
    · rename_i h; exact step_alive h
    · cases hs
  | welcome c n =>
    simp only [State.step] at hs
    repeat' split at hs
    all_goals first
      | contradiction
      | (injection hs with hs; subst hs; exact hc)
  | client c n e =>
    simp only [State.step] at hs
    repeat' split at hs
    all_goals first
      | contradiction
      | (injection hs with hs; subst hs; exact hc)
  | server n e =>
    simp only [State.step] at hs
    split at hs
    · split at hs
      · rename_i h; exact step_alive h
      · cases hs
    · cases hs

/-- Induction over executions. -/
theorem joint_induction {cfg : Server.Config} {P : State → Prop} (h0 : P State.init)
    (hstep : ∀ s e s', Inv cfg s → Inv cfg s' → P s → s.step cfg e = some s' → P s') {s : State} (h : Spec.Reached cfg s) : Inv cfg s ∧ P s := by
  obtain ⟨⟨es, hr, hsane⟩, hc⟩ := h
  have key : ∀ (es : List Ev) (s0 : State), Inv cfg s0 → P s0 → s0.run cfg es = some s → (∀ e ∈ es, Spec.Sane e) → Inv cfg s ∧ P s := by
    intro es
    induction es with
    | nil => intro s0 hi hp h _; simp only [State.run, Option.some.injEq] at h; subst h; exact ⟨hi, hp⟩
    | cons e es ih =>
      intro s0 hi hp h hsn
      simp only [State.run] at h
      split at h
      · rename_i s1 h1
        have hc1 : s1.server.crashed = false := by
          have : ∀ (es : List Ev) (s1 : State), s1.run cfg es = some s → s1.server.crashed = false := by
            intro es
            induction es with
            | nil => intro s1 h; simp only [State.run, Option.some.injEq] at h; subst h; exact hc
            | cons e es ih =>
              intro s1 h
              simp only [State.run] at h
              split at h
              · rename_i s2 h2; exact step_stays h2 (ih s2 h)
              · cases h
          exact this es s1 h
        have hi1 := inv_step hi h1 (hsn e (by simp)) hc1
        exact ih s1 hi1 (hstep _ _ _ hi hi1 hp h1) h (fun e he => hsn e (by simp [he]))
      · cases h
  exact key es _ (inv_init cfg) h0 hr hsane

theorem inv_reached {cfg : Server.Config} {s : State} (h : Spec.Reached cfg s) : Inv cfg s := (joint_induction (P := fun _ => True) trivial (fun _ _ _ _ _ _ _ => trivial) h).1

end Stomp.Joint
