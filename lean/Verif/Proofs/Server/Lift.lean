import Verif.Proofs.Server.SysInv
/-! # All messages in the server, and the connections of a server as runs of their own -/
namespace Stomp.Server
open Stomp

/-- All messages in the server have a property. -/
structure Sys.All (P : Msg → Prop) (s : Sys) : Prop where
  core : ∀ (c : Nat) (k : Conn), s.conns[c]? = some k → k.core.All P
  enq : ∀ m, .enqueue m ∈ s.reqCh → P m
  req : ∀ m, .requeue (some m) ∈ s.reqCh → P m
  store : ∀ d, ∀ m ∈ s.store.list d, P m
  todo : ∀ d r m, .topic d r m ∈ s.todo → P m

theorem Sys.All.mono {P Q : Msg → Prop} {s : Sys} (h : s.All P) (hpq : ∀ m, P m → Q m) : s.All Q :=
  ⟨fun c k hk => ⟨fun i m hm => hpq m ((h.core c k hk).heap i m hm), fun m hm => hpq m ((h.core c k hk).enq m hm),
      fun m hm => hpq m ((h.core c k hk).req m hm), fun m hm => hpq m ((h.core c k hk).wr m hm)⟩,
    fun m hm => hpq m (h.enq m hm), fun m hm => hpq m (h.req m hm), fun d m hm => hpq m (h.store d m hm), fun d r m hm => hpq m (h.todo d r m hm)⟩

theorem core_all_frame {P : Msg → Prop} {a : Core} (h : a.All P) (i : Nat) (m : Msg) (hm : P m) :
    Core.All P { a with heap := putFrame a.heap i (some m) } := by
  refine ⟨fun j x hx => ?_, h.enq, h.req, h.wr⟩
  dsimp only at hx
  rw [deref_putFrame] at hx
  split at hx
  · injection hx with hx; subst hx; exact hm
  · exact h.heap j x hx

theorem core_all_inList {P : Msg → Prop} {a : Core} (h : a.All P) (i : Nat) (b : Bool) :
    Core.All P { a with heap := putInList a.heap i b } := by
  refine ⟨fun j x hx => ?_, h.enq, h.req, h.wr⟩
  dsimp only at hx
  rw [frame_putInList] at hx
  exact h.heap j x hx

theorem core_set {P : Msg → Prop} {s : Sys} (h : s.All P) {c : Nat} {k k' : Conn} (hk : s.conns[c]? = some k) (hp : k'.core.All P) :
    ∀ (j : Nat) (x : Conn), (s.conns.set c k')[j]? = some x → x.core.All P := by
  intro j x hx
  rw [get_set hk] at hx
  split at hx
  · injection hx with hx; subst hx; exact hp
  · exact h.core j x hx

theorem all_step {cfg : Config} {P : Msg → Prop} {s s' : Sys} {e : Sys.Ev} (hi : SInv cfg s) (h : s.All P)
    (ha : ∀ m n x, P m → P (m.alloc n x)) (hd : ∀ m id, P m → P (m.addressed id)) (hs : SysStep cfg s e s')
    (hf : ∀ (c : Nat) (k k' : Conn) a' f, s.conns[c]? = some k → s'.conns[c]? = some k' → Mics k.core a' → f.command = Cmd.send →
      (∃ l, k'.effective = a'.effective ++ [f] ++ l) → P ⟨⟨a'.me, a'.sent⟩, { f with command := Cmd.message }⟩) : s'.All P := by
  have tl : ∀ {r : Req} {rs : List Req}, s.reqCh = r :: rs → (∀ m, .enqueue m ∈ rs → P m) ∧ ∀ m, .requeue (some m) ∈ rs → P m := by
    intro r rs hr
    exact ⟨fun m hm => h.enq m (by rw [hr]; exact List.mem_cons_of_mem _ hm), fun m hm => h.req m (by rw [hr]; exact List.mem_cons_of_mem _ hm)⟩
  have put : ∀ {front : Bool} {m : Msg} {rs : List Req}, s.reqCh = putReq front m :: rs → P m := by
    intro front m rs hr
    cases front with
    | true => exact h.req m (by rw [hr]; exact List.mem_cons_self)
    | false => exact h.enq m (by rw [hr]; exact List.mem_cons_self)
  cases hs with
  | accept =>
    refine ⟨?_, h.enq, h.req, h.store, h.todo⟩
    intro c k hk
    by_cases hlt : c < s.conns.length
    · rw [List.getElem?_append_left hlt] at hk; exact h.core c k hk
    · rw [List.getElem?_append_right (by omega)] at hk
      cases hn : c - s.conns.length with
      | zero =>
        rw [hn] at hk
        simp at hk
        subst hk
        refine ⟨?_, ?_, ?_, ?_⟩ <;> simp [Conn.init, Conn.core, pending, deref, default, instInhabitedSub.default]
      | succ n => rw [hn] at hk; simp at hk
  | conn c e k k' hk hin hst =>
    have hm := mics_conn hi hk hin hst
    refine ⟨core_set h hk ?_, h.enq, h.req, h.store, h.todo⟩
    exact hm.all (h.core c k hk) ha (fun a' f h1 h2 h3 => hf c k k' a' f hk (by rw [get_set hk, if_pos rfl]) h1 h2 h3)
  | flush c k r o hk ho hc =>
    have hc0 := h.core c k hk
    have hcp : k.core.pend = r :: pending o := by show pending k.outbox = _; rw [ho]; rfl
    refine ⟨core_set h hk ⟨hc0.heap, ?_, ?_, hc0.wr⟩, ?_, ?_, h.store, h.todo⟩
    · intro m hm; exact hc0.enq m (by rw [hcp]; exact List.mem_cons_of_mem _ hm)
    · intro m hm; exact hc0.req m (by rw [hcp]; exact List.mem_cons_of_mem _ hm)
    · intro m hm
      dsimp only at hm
      rw [mem_append_one] at hm
      rcases hm with hm | hm
      · exact h.enq m hm
      · exact hc0.enq m (by rw [hcp, ← hm]; simp)
    · intro m hm
      dsimp only at hm
      rw [mem_append_one] at hm
      rcases hm with hm | hm
      · exact h.req m hm
      · exact hc0.req m (by rw [hcp, ← hm]; simp)
  | skip r rs ht hr => exact ⟨h.core, (tl hr).1, (tl hr).2, h.store, h.todo⟩
  | joinTopic r rs k dest ht hr => exact ⟨h.core, (tl hr).1, (tl hr).2, h.store, h.todo⟩
  | wait r rs k dest ht hr hk => exact ⟨core_set h hk (core_all_inList (h.core _ k hk) _ _), (tl hr).1, (tl hr).2, h.store, h.todo⟩
  | take r rs k dest m l ht hr hk hidx hdd hq hm hfr =>
    have hpm : P m := h.store dest m (by rw [hm]; simp)
    refine ⟨core_set h hk (core_all_frame (h.core _ k hk) _ _ (hd _ _ hpm)), (tl hr).1, (tl hr).2, ?_, by simp⟩
    intro d x hx
    dsimp only at hx
    rw [AMap.list_set] at hx
    split at hx
    · exact h.store dest x (by rw [hm]; exact List.mem_cons_of_mem _ hx)
    · exact h.store d x hx
  | leaveQueue r rs k dest ht hr hk => exact ⟨core_set h hk (core_all_inList (h.core _ k hk) _ _), (tl hr).1, (tl hr).2, h.store, h.todo⟩
  | absent r rs k dest ht hr => exact ⟨h.core, (tl hr).1, (tl hr).2, h.store, h.todo⟩
  | leaveTopic r rs k dest ht hr => exact ⟨h.core, (tl hr).1, (tl hr).2, h.store, h.todo⟩
  | store front m rs dest ht hr hdd hq he =>
    refine ⟨h.core, (tl hr).1, (tl hr).2, ?_, h.todo⟩
    intro d x hx
    dsimp only at hx
    rw [AMap.list_set] at hx
    split at hx
    · cases front with
      | true =>
        rw [if_pos rfl] at hx
        rcases List.mem_cons.1 hx with hx | hx
        · subst hx; exact put hr
        · exact h.store dest x hx
      | false =>
        rw [if_neg (by simp), mem_append_one] at hx
        rcases hx with hx | hx
        · exact h.store dest x hx
        · subst hx; exact put hr
    · exact h.store d x hx
  | give front m rs dest r q k ht hr hdd hq he hk hidx hfr =>
    have := core_all_frame (core_all_inList (h.core _ k hk) r.idx false) r.idx _ (hd m (deref k.heap r.idx).id (put hr))
    exact ⟨core_set h hk this, (tl hr).1, (tl hr).2, h.store, by simp⟩
  | cast m rs dest ht hr hdd hq =>
    refine ⟨h.core, (tl hr).1, (tl hr).2, h.store, ?_⟩
    intro d r x hx
    simp only [List.mem_map] at hx
    obtain ⟨z, hz, e⟩ := hx
    injection e with e1 e2 e3
    subst e3; exact h.enq m (by rw [hr]; exact List.mem_cons_self)
  | drop m rs dest ht hr => exact ⟨h.core, (tl hr).1, (tl hr).2, h.store, h.todo⟩
  | pushQueue r t k ht hk hc =>
    have hc0 := h.core _ k hk
    exact ⟨core_set h hk ⟨hc0.heap, hc0.enq, hc0.req, hc0.wr⟩, h.enq, h.req, h.store, fun d x m hm => h.todo d x m (by rw [ht]; exact List.mem_cons_of_mem _ hm)⟩
  | pushTopic dest r m t k ht hk hfr hc =>
    have hc0 := h.core _ k hk
    refine ⟨core_set h hk ⟨hc0.heap, hc0.enq, hc0.req, ?_⟩, h.enq, h.req, h.store, fun d x m hm => h.todo d x m (by rw [ht]; exact List.mem_cons_of_mem _ hm)⟩
    intro x hx
    have hx : x ∈ k.writeCh ++ [m.addressed (deref k.heap r.idx).id] := hx
    rw [mem_append_one] at hx
    rcases hx with hx | hx
    · exact hc0.wr x hx
    · subst hx; exact hd _ _ (h.todo dest r m (by rw [ht]; simp))

theorem Sys.All.init (P : Msg → Prop) : Sys.init.All P := by
  refine ⟨?_, ?_, ?_, ?_, ?_⟩ <;> simp [Sys.init, AMap.list, AMap.get?]

/-- All messages in the server are MESSAGE frames. -/
theorem messages_run {cfg : Config} {es : List Sys.Ev} {s : Sys} (h : Sys.init.run cfg es = some s) (hc : s.crashed = false) :
    s.All (fun m => m.frame.command = Cmd.message) :=
  (sys_induction (Sys.All.init _)
    (fun s e s' hi hp hs => all_step hi hp (fun m n x hm => (by show (allocFrame _ _ _).command = _; rw [allocFrame_command]; exact hm)) (fun _ _ hm => hm) hs
      (fun _ _ _ _ _ _ _ _ _ _ => rfl)) es s h hc).2

/-- Every connection of the server behaves like a connection in some environment that only offers MESSAGE frames. -/
theorem conn_run {cfg : Config} {es : List Sys.Ev} {s : Sys} (h : Sys.init.run cfg es = some s) (hc : s.crashed = false) {c : Nat} {k : Conn}
    (hk : s.conns[c]? = some k) : ∃ ces, (Conn.init c).run cfg ces = some k ∧ ∀ e ∈ ces, EnvOk e := by
  have key := (sys_induction (cfg := cfg)
    (P := fun s => s.All (fun m => m.frame.command = Cmd.message) ∧
      ∀ (c : Nat) (k : Conn), s.conns[c]? = some k → ∃ ces, (Conn.init c).run cfg ces = some k ∧ ∀ e ∈ ces, EnvOk e)
    ⟨Sys.All.init _, by simp [Sys.init]⟩ ?_ es s h hc).2.2
  · exact key c k hk
  · intro s e s' hi ⟨hall, hrun⟩ hs
    refine ⟨all_step hi hall (fun m n x hm => (by show (allocFrame _ _ _).command = _; rw [allocFrame_command]; exact hm)) (fun _ _ hm => hm) hs
      (fun _ _ _ _ _ _ _ _ _ _ => rfl), ?_⟩
    have ext : ∀ {c : Nat} {k k' : Conn} {e : Conn.Ev}, s.conns[c]? = some k → k.step cfg e = some k' → EnvOk e →
        ∀ (j : Nat) (x : Conn), (s.conns.set c k')[j]? = some x → ∃ ces, (Conn.init j).run cfg ces = some x ∧ ∀ e ∈ ces, EnvOk e := by
      intro c k k' e hk hst he j x hx
      rw [get_set hk] at hx
      split at hx
      · rename_i hj
        injection hx with hx; subst hx hj
        obtain ⟨ces, h1, h2⟩ := hrun c k hk
        refine ⟨ces ++ [e], run_snoc h1 hst, ?_⟩
        intro e' he'
        rw [mem_append_one] at he'
        rcases he' with he' | rfl
        · exact h2 e' he'
        · exact he
      · exact hrun j x hx
    have put : ∀ {front : Bool} {m : Msg} {rs : List Req}, s.reqCh = putReq front m :: rs → m.frame.command = Cmd.message := by
      intro front m rs hr
      cases front with
      | true => exact hall.req m (by rw [hr]; exact List.mem_cons_self)
      | false => exact hall.enq m (by rw [hr]; exact List.mem_cons_self)
    cases hs with
    | accept =>
      intro c k hk
      by_cases hlt : c < s.conns.length
      · rw [List.getElem?_append_left hlt] at hk; exact hrun c k hk
      · rw [List.getElem?_append_right (by omega)] at hk
        cases hn : c - s.conns.length with
        | zero =>
          rw [hn] at hk
          simp at hk
          subst hk
          have : c = s.conns.length := by omega
          subst this
          exact ⟨[], rfl, by simp⟩
        | succ n => rw [hn] at hk; simp at hk
    | conn c e k k' hk hin hst => exact ext hk hst (by cases e <;> first | trivial | cases hin)
    | flush c k r o hk ho hc => exact ext (e := .flushed) hk (by simp only [Conn.step, ho]) trivial
    | skip r rs ht hr => exact hrun
    | joinTopic r rs k dest ht hr => exact hrun
    | wait r rs k dest ht hr hk => exact ext (e := .setInList r.idx true) hk rfl trivial
    | take r rs k dest m l ht hr hk hidx hdd hq hm hfr =>
      exact ext (e := .setFrame r.idx (m.addressed (deref k.heap r.idx).id)) hk rfl (hall.store dest m (by rw [hm]; simp))
    | leaveQueue r rs k dest ht hr hk => exact ext (e := .setInList r.idx false) hk rfl trivial
    | absent r rs k dest ht hr => exact hrun
    | leaveTopic r rs k dest ht hr => exact hrun
    | store front m rs dest ht hr hdd hq he => exact hrun
    | give front m rs dest r q k ht hr hdd hq he hk hidx hfr =>
      intro j x hx
      dsimp only at hx
      rw [get_set hk] at hx
      split at hx
      · rename_i hj
        injection hx with hx; subst hx hj
        obtain ⟨ces, h1, h2⟩ := hrun _ k hk
        refine ⟨ces ++ [.setInList r.idx false] ++ [.setFrame r.idx (m.addressed (deref k.heap r.idx).id)], run_snoc (run_snoc h1 rfl) rfl, ?_⟩
        intro e' he'
        rw [mem_append_one, mem_append_one] at he'
        rcases he' with (he' | rfl) | rfl
        · exact h2 e' he'
        · trivial
        · exact (show m.frame.command = _ from put hr)
      · exact hrun j x hx
    | cast m rs dest ht hr hdd hq => exact hrun
    | drop m rs dest ht hr => exact hrun
    | pushQueue r t k ht hk hc => exact ext (e := .pushSub r.idx) hk (if_pos hc) trivial
    | pushTopic dest r m t k ht hk hfr hc =>
      exact ext (e := .pushTopic (m.addressed (deref k.heap r.idx).id)) hk (if_pos hc) (hall.todo dest r m (by rw [ht]; simp))

end Stomp.Server
