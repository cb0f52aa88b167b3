import Verif.Proofs.Server.Writes
import Verif.Proofs.Server.QueueSim
import Verif.Proofs.Server.Lift
import Verif.Props.Server.Queues
import Verif.Spec.Once
/-! # No message comes back from connections that are open and refuse nothing -/
namespace Stomp.Server
open Stomp

/-- No message was given back so far. -/
def NoReturn (l : List Req) : Prop := ∀ m, .requeue (some m) ∉ l

theorem NoReturn.append {l l' : List Req} (h : NoReturn l) (h' : NoReturn l') : NoReturn (l ++ l') := by
  intro m hm
  rcases List.mem_append.1 hm with hm | hm
  · exact h m hm
  · exact h' m hm

theorem Applied.noReturn {c : Conn} {f : Frame} {c' : Conn} {r : Res} (h : Applied c f c' r) (hf : f.command ≠ Cmd.nack) (hn : NoReturn c.log) : NoReturn c'.log := by
  cases h with
  | send => exact hn.append (by intro m; simp)
  | ack _ n => exact hn.append (by intro m; simp)
  | nack hc => exact absurd hc hf

theorem Committed.noReturn {c : Conn} {fs : List Frame} {c' : Conn} {r : Res} (h : Committed c fs c' r) (hf : ∀ f ∈ fs, f.command ≠ Cmd.nack) (hn : NoReturn c.log) : NoReturn c'.log := by
  induction h with
  | nil => exact hn
  | cons h _ ih => exact ih (fun f hm => hf f (List.mem_cons_of_mem _ hm)) (h.noReturn (hf _ List.mem_cons_self) hn)
  | panic h => exact h.noReturn (hf _ List.mem_cons_self) hn

theorem Rcpt.log_eq {c : Conn} {ok : Bool} {f : Frame} {c1 : Conn} {f1 : Frame} {k : Bool} (h : Rcpt c ok f c1 f1 k) : c1.log = c.log := by cases h <;> rfl

theorem Handled.noReturn {c : Conn} {ok : Bool} {f : Frame} {c' : Conn} {f' : Frame} {r : Res} (h : Handled c ok f c' f' r) (hf : f.command ≠ Cmd.nack)
    (ht : ∀ t l, c.tx.get? t = some l → ∀ g ∈ l, g.command ≠ Cmd.nack) (hn : NoReturn c.log) : NoReturn c'.log := by
  have z : ∀ {c1 : Conn} {f1 : Frame} {k : Bool}, Rcpt c ok f c1 f1 k → NoReturn c1.log := fun hr => by rw [hr.log_eq]; exact hn
  cases h with
  | commitMissing => exact hn
  | commitWrite _ _ _ hr => exact z hr
  | commitUnknown _ _ _ _ hr => exact z hr
  | commit _ t _ l hl hr h => exact h.noReturn (ht t l hl) (z hr)
  | basic hnc hb =>
    cases hb with
    | unexpected => exact hn
    | refused => exact hn
    | disconnect _ hr => exact z hr
    | writeFail _ hr => exact z hr
    | txErr _ _ _ _ _ hr => exact z hr
    | begin_ t _ _ _ hr => have := z hr; exact this
    | abort t _ _ _ _ hr => have := z hr; exact this
    | store _ _ _ _ _ _ hr => have := z hr; exact this
    | subscribe => exact hn.append (by intro m; simp)
    | unsubscribe => exact hn.append (by intro m; simp)
    | send _ _ hr => exact (z hr).append (by intro m; simp)
    | ack _ _ _ _ hr => exact (z hr).append (by intro m; simp)
    | nack hc => exact absurd hc hf

/-- What holds of a connection from which nothing came back. -/
structure NoneBack (c : Conn) : Prop where
  log : NoReturn c.log
  ids : ∀ s ∈ c.heap, c.subs.get? s.id ≠ none

theorem NoneBack.static {c c' : Conn} (h : NoneBack c) (hl : NoReturn c'.log) (hs : c'.subs = c.subs)
    (he : c'.heap.map (fun s => (s.id, s.dest, s.ack, s.msgId)) = c.heap.map (fun s => (s.id, s.dest, s.ack, s.msgId))) : NoneBack c' := by
  refine ⟨hl, fun s hm => ?_⟩
  have h1 : (s.id, s.dest, s.ack, s.msgId) ∈ c'.heap.map (fun s => (s.id, s.dest, s.ack, s.msgId)) := List.mem_map_of_mem hm
  rw [he] at h1
  obtain ⟨s', h2, h3⟩ := List.mem_map.1 h1
  rw [hs, ← (Prod.mk.inj h3).1]
  exact h.ids s' h2

theorem accepting_back {c c' : Conn} (h : Spec.Accepting c') (hs : c.stage ≠ .run → c'.stage ≠ .run) (hh : ∀ f ∈ c.hist, f ∈ c'.hist) : Spec.Accepting c :=
  ⟨Classical.byContradiction fun hn => hs hn h.1, fun f hf => h.2 f (hh f hf)⟩

theorem noneBack_step {cfg : Config} {c : Conn} {e : Conn.Ev} {c' : Conn} (hg : Gate cfg c) (ho : HistOk c) (hp : Spec.Accepting c → NoneBack c) (hs : Step cfg c e c') :
    Spec.Accepting c' → NoneBack c' := by
  intro ha
  cases hfr : isFrame e with
  | false =>
    have q := quiet_step hs hfr
    have h0 := hp (accepting_back ha q.stage (fun f hf => by rw [q.hist]; exact hf))
    have hsubs : c'.subs = c.subs := q.subs.resolve_right (fun hn => hn ha.1)
    refine h0.static ?_ hsubs q.heap
    cases hs with
    | frame => cases hfr
    | subGone ok i l hat hl hg =>
      refine h0.log.append ?_
      intro m hm
      rw [List.mem_singleton] at hm
      injection hm with hm
      have hlt := lt_of_frame hm.symm
      refine h0.ids (deref c.heap i) ?_ hg
      unfold deref
      rw [List.getD_eq_getElem?_getD, List.getElem?_eq_getElem hlt]
      exact List.getElem_mem hlt
    | subAuto => exact h0.log.append (by intro m; simp)
    | acklist _ hst => exact absurd ha.1 (by simp [Conn.emit])
    | drain i l _ hst => 
      have : c.stage = .run := ha.1
      rcases hst with h | h <;> rw [h] at this <;> cases this
    | announce => exact h0.log.append (by intro m; simp)
    | unsub => exact h0.log.append (by intro m; simp)
    | _ => exact h0.log
  | true =>
    cases hs with
    | frame ok1 ok2 f q c1 _ f' r hat hq hsf hfin =>
      have hst : c.stage = .run := by
        have := hat
        simp only [Conn.atSelect, Bool.and_eq_true, decide_eq_true_eq] at this
        exact this.1
      rcases frame_cases hg hsf hfin with ⟨_, v, cx, cy, _, ⟨_, rfl⟩ | ⟨_, rfl⟩⟩ | ⟨_, _, e, v, ⟨_, rfl⟩ | ⟨_, rfl⟩⟩ | ⟨_, hh, hf⟩
      · have h0 := hp ⟨hst, fun f hf => ha.2 f (List.mem_append_left _ hf)⟩
        exact h0.static (h0.log.append (by intro m; simp)) rfl rfl
      · have h0 := hp ⟨hst, fun f hf => ha.2 f (List.mem_append_left _ hf)⟩
        exact h0.static (h0.log.append (by intro m; simp)) rfl rfl
      · exact absurd ha.1 (by simp)
      · exact absurd ha.1 (by simp)
      · have hhist : c'.hist = c.hist ++ [f] := by
          have : c1.hist = c.hist ++ [f] := hh.keeps.hist
          cases hf <;> exact this
        have h0 := hp ⟨hst, fun g hg => ha.2 g (by rw [hhist]; exact List.mem_append_left _ hg)⟩
        have hfc := ha.2 f (by rw [hhist]; simp)
        have hlog : NoReturn c1.log := hh.noReturn hfc.1 (fun t l hl g hm => by
          obtain ⟨f0, h1, h2⟩ := ho.tx t l hl g hm
          rw [h2]
          exact (ha.2 f0 (by rw [hhist]; exact List.mem_append_left _ h1)).1) h0.log
        have h1 : NoneBack c1 := by
          rcases hh.subs with ⟨e1, e2⟩ | ⟨_, _, id, dest, _, _, _, e1, e2⟩ | ⟨_, hc, _⟩
          · exact h0.static hlog e1 e2
          · refine ⟨hlog, fun s hm => ?_⟩
            rw [e2, List.mem_append, List.mem_singleton] at hm
            rw [e1, AMap.get?_set]
            split
            · simp
            · rename_i hne
              rcases hm with hm | rfl
              · exact h0.ids s hm
              · exact absurd rfl hne
          · exact absurd hc hfc.2
        cases hf with
        | ok => exact h1
        | panic => exact ⟨h1.log, h1.ids⟩
        | err => exact absurd ha.1 (by simp)
        | errFail => exact absurd ha.1 (by simp)
    | _ => cases hfr

theorem noneBack_run {cfg : Config} {me : Nat} {es : List Conn.Ev} {c : Conn} (h : (Conn.init me).run cfg es = some c) (ha : Spec.Accepting c) : NoneBack c :=
  (gate_induction (P := fun c => HistOk c ∧ (Spec.Accepting c → NoneBack c))
    (fun _ _ _ hg hp hs => ⟨histOk_step hg hp.1 hs, noneBack_step hg hp.1 hp.2 hs⟩) es c
    ⟨⟨by simp [Conn.init], by simp [Conn.init, AMap.get?]⟩, fun _ => ⟨by intro m; simp [Conn.init], by simp [Conn.init]⟩⟩ h).2.2 ha

/-- Messages that come back were given back by a connection. -/
def BackOk (i : List Spec.QAsk) (s : Sys) : Prop :=
  ((∃ a ∈ i, Spec.isRequeue a = true) ∨ ¬NoReturn s.reqCh) → ∃ (c : Nat) (k : Conn), s.conns[c]? = some k ∧ ¬NoReturn k.log

theorem mem_log_run {cfg : Config} {me : Nat} {es : List Conn.Ev} {c : Conn} (h : (Conn.init me).run cfg es = some c) : ∀ r ∈ pending c.outbox, r ∈ c.log := by
  refine (gate_induction (P := fun c => ∀ r ∈ pending c.outbox, r ∈ c.log) (fun c e c' hg hp hs => ?_) es c (by simp [Conn.init, pending]) h).2
  rcases emit_step hg hs with ⟨r, o, _, h1, h2, h3⟩ | ⟨_, l, h1, h2⟩
  · intro x hx
    rw [h3]
    refine hp x ?_
    rw [h2] at hx
    rw [h1]
    unfold pending at hx ⊢
    exact List.mem_cons_of_mem _ hx
  · intro x hx
    rw [h2] at hx
    rw [h1]
    rcases List.mem_append.1 hx with hx | hx
    · exact List.mem_append_left _ (hp x hx)
    · exact List.mem_append_right _ hx

theorem log_grows {cfg : Config} {c : Conn} {e : Conn.Ev} {c' : Conn} (hg : Gate cfg c) (hs : Step cfg c e c') : ∃ l, c'.log = c.log ++ l := by
  rcases emit_step hg hs with ⟨_, _, _, _, _, h3⟩ | ⟨_, l, h1, _⟩
  · exact ⟨[], by rw [h3, List.append_nil]⟩
  · exact ⟨l, h1⟩

theorem back_step {cfg : Config} {d : Bytes} {i : List Spec.QAsk} {s s' : Sys} {e : Sys.Ev} (hruns : ∀ (c : Nat) (k : Conn), s.conns[c]? = some k → ∃ ces, (Conn.init c).run cfg ces = some k)
    (h : BackOk i s) (hs : SysStep cfg s e s') : BackOk (i ++ Spec.asked d s e) s' := by
  -- a connection keeps its log
  have keep : ∀ {c0 : Nat} {k0 k1 : Conn}, s.conns[c0]? = some k0 → (∃ l, k1.log = k0.log ++ l) → (∃ (c : Nat) (k : Conn), s.conns[c]? = some k ∧ ¬NoReturn k.log) →
      ∃ (c : Nat) (k : Conn), (s.conns.set c0 k1)[c]? = some k ∧ ¬NoReturn k.log := by
    rintro c0 k0 k1 hk0 ⟨l, hl⟩ ⟨c, k, hk, hn⟩
    by_cases hc : c0 = c
    · subst hc
      rw [hk0] at hk; injection hk with hk; subst hk
      refine ⟨c0, k1, ?_, fun h => hn (fun m hm => h m (by rw [hl]; exact List.mem_append_left _ hm))⟩
      rw [get_set hk0, if_pos rfl]
    · refine ⟨c, k, ?_, hn⟩
      rw [get_set hk0, if_neg hc]; exact hk
  -- what the processor takes is in its channel
  have proc : ∀ {r : Req} {rs : List Req}, s.reqCh = r :: rs → ((∃ a ∈ i ++ Spec.asked d s .proc, Spec.isRequeue a = true) ∨ ¬NoReturn rs) →
      ∃ (c : Nat) (k : Conn), s.conns[c]? = some k ∧ ¬NoReturn k.log := by
    rintro r rs hr (⟨a, ha, hq⟩ | hn)
    · rcases List.mem_append.1 ha with ha | ha
      · exact h (.inl ⟨a, ha, hq⟩)
      · refine h (.inr fun hn => ?_)
        unfold Spec.asked at ha
        dsimp only at ha
        rw [hr] at ha hn
        cases r with
        | requeue x =>
          cases x with
          | none => cases ha
          | some m => exact hn m List.mem_cons_self
        | enqueue m =>
          dsimp only at ha
          split at ha
          · rw [List.mem_singleton] at ha; subst ha; cases hq
          · cases ha
        | subscribe x =>
          dsimp only at ha
          split at ha
          · rw [List.mem_singleton] at ha; subst ha; cases hq
          · cases ha
        | unsubscribe x =>
          dsimp only at ha
          split at ha
          · rw [List.mem_singleton] at ha; subst ha; cases hq
          · cases ha
        | connected => cases ha
        | disconnected => cases ha
    · exact h (.inr fun hf => hn (fun m hm => hf m (by rw [hr]; exact List.mem_cons_of_mem _ hm)))
  cases hs with
  | accept =>
    intro hx
    rw [show Spec.asked d s .accept = [] from rfl, List.append_nil] at hx
    obtain ⟨c, k, hk, hn⟩ := h hx
    refine ⟨c, k, ?_, hn⟩
    rw [List.getElem?_append_left (List.getElem?_eq_some_iff.1 hk).1]; exact hk
  | conn c e k k' hk hi hs =>
    intro hx
    rw [show Spec.asked d s (.conn c e) = [] from rfl, List.append_nil] at hx
    obtain ⟨ces, hr⟩ := hruns c k hk
    have hg := (gate_induction (P := fun _ => True) (fun _ _ _ _ _ _ => trivial) ces k trivial hr).1
    exact keep hk (log_grows hg (step_of cfg k e k' hs)) (h hx)
  | flush c k r o hk ho hc =>
    intro hx
    rw [show Spec.asked d s (.flush c) = [] from rfl, List.append_nil] at hx
    refine keep hk ⟨[], (List.append_nil _).symm⟩ ?_
    rcases hx with hx | hx
    · exact h (.inl hx)
    · by_cases hn : NoReturn s.reqCh
      · obtain ⟨ces, hr⟩ := hruns c k hk
        refine ⟨c, k, hk, fun hl => hx (hn.append ?_)⟩
        intro m hm
        rw [List.mem_singleton] at hm
        refine hl m (mem_log_run hr _ ?_)
        rw [ho, ← hm]
        exact List.mem_cons_self
      · exact h (.inr hn)
  | skip r rs ht hr hn => exact proc hr
  | joinTopic r rs k dest ht hr => exact proc hr
  | wait r rs k dest ht hr hk => exact fun hx => keep hk ⟨[], (List.append_nil _).symm⟩ (proc hr hx)
  | take r rs k dest m l ht hr hk => exact fun hx => keep hk ⟨[], (List.append_nil _).symm⟩ (proc hr hx)
  | leaveQueue r rs k dest ht hr hk => exact fun hx => keep hk ⟨[], (List.append_nil _).symm⟩ (proc hr hx)
  | absent r rs k dest ht hr => exact proc hr
  | leaveTopic r rs k dest ht hr => exact proc hr
  | store front m rs dest ht hr => exact proc hr
  | give front m rs dest r q k ht hr hdd hq he hk => exact fun hx => keep hk ⟨[], (List.append_nil _).symm⟩ (proc hr hx)
  | cast m rs dest ht hr => exact proc hr
  | drop m rs dest ht hr => exact proc hr
  | pushQueue r t k ht hk hc =>
    intro hx
    rw [show Spec.asked d s .push = [] from rfl, List.append_nil] at hx
    exact keep hk ⟨[], (List.append_nil _).symm⟩ (h hx)
  | pushTopic dest r m t k ht hk hf hc =>
    intro hx
    rw [show Spec.asked d s .push = [] from rfl, List.append_nil] at hx
    exact keep hk ⟨[], (List.append_nil _).symm⟩ (h hx)

theorem back_run {cfg : Config} {d : Bytes} {es : List Sys.Ev} {s : Sys} (h : Sys.init.run cfg es = some s) (hc : s.crashed = false) :
    BackOk (Spec.observe (Spec.asked d) cfg Sys.init es) s := by
  refine (trace_induction_step (P := fun es s => BackOk (Spec.observe (Spec.asked d) cfg Sys.init es) s) ?_ ?_ es s h hc).2.2
  · rintro (⟨a, ha, _⟩ | hn)
    · cases ha
    · exact absurd (by intro m; simp [Sys.init]) hn
  · intro es s e s' hi ha hr hp hs hst
    rw [observe_snoc _ _ _ _ _ hr]
    refine back_step (fun c k hk => ?_) hp hs
    have hcr : s.crashed = false := by
      cases hx : s.crashed with
      | false => rfl
      | true => unfold Sys.step at hst; rw [hx] at hst; cases hst
    obtain ⟨ces, h1, _⟩ := conn_run hr hcr hk
    exact ⟨ces, h1⟩

/-- If all connections are open and no client has refused a message or given up a subscription, no message has come back to a queue. -/
theorem none_back {cfg : Config} {es : List Sys.Ev} {s : Sys} (h : Sys.init.run cfg es = some s) (hc : s.crashed = false) (ha : ∀ k ∈ s.conns, Spec.Accepting k) (d : Bytes) :
    ∀ a ∈ Spec.observe (Spec.asked d) cfg Sys.init es, Spec.isRequeue a = false := by
  intro a hm
  cases hq : Spec.isRequeue a with
  | false => rfl
  | true =>
    obtain ⟨c, k, hk, hn⟩ := back_run (d := d) h hc (.inl ⟨a, hm, hq⟩)
    obtain ⟨ces, hr, _⟩ := conn_run h hc hk
    exact absurd (noneBack_run hr (ha k (List.mem_of_getElem? hk))).log hn

end Stomp.Server
