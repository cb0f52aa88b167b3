import Verif.Props.Server.Acks
/-!
# Property C47: the processor and the connections do not wait for each other
-/
namespace Stomp.Server
open Stomp

/-- The processor cannot do its next channel send, to connection `c`: the channel is full. -/
def Spec.ProcessorWaitsFor (s : Sys) (c : Nat) : Prop :=
  ∃ k, s.conns[c]? = some k ∧
    ((∃ d i m t, s.todo = .topic d ⟨c, i⟩ m :: t ∧ 16 ≤ k.writeCh.length) ∨ (∃ i t, s.todo = .queue ⟨c, i⟩ :: t ∧ 16 ≤ k.subCh.length))

/-- Connection `c` wants to send a request to the processor, and the request channel is full. -/
def Spec.WaitsForProcessor (s : Sys) (c : Nat) : Prop :=
  ∃ k r o, s.conns[c]? = some k ∧ k.outbox = .req r :: o ∧ 128 ≤ s.reqCh.length

/-- The goroutine of connection `c` has ended. -/
def Spec.Gone (s : Sys) (c : Nat) : Prop := ∃ k, s.conns[c]? = some k ∧ k.stage = .closed

/-- The events in which connection `c` takes something from a channel, goes on with its clean-up, or sends a request. -/
def Spec.Moves (c : Nat) : Sys.Ev → Prop
  | .conn c' (.wr _) => c' = c
  | .conn c' (.sub _) => c' = c
  | .conn c' .clean => c' = c
  | .conn c' (.cleanUnsub _) => c' = c
  | .flush c' => c' = c
  | _ => False

theorem flush_enabled {cfg : Config} {s : Sys} (hc : s.crashed = false) {c : Nat} {k : Conn} (hk : s.conns[c]? = some k) (ho : k.outbox ≠ [])
    (hw : ¬Spec.WaitsForProcessor s c) : ∃ s', s.step cfg (.flush c) = some s' := by
  unfold Sys.step
  rw [if_neg (by rw [hc]; simp)]
  dsimp only
  rw [hk]
  dsimp only
  cases he : k.outbox with
  | nil => exact absurd he ho
  | cons x o =>
    cases x with
    | panic => exact ⟨_, rfl⟩
    | req r =>
      dsimp only
      have hlt : s.reqCh.length < Sys.reqCap := by
        unfold Sys.reqCap
        by_cases h : s.reqCh.length < 128
        · exact h
        · exact absurd ⟨k, r, o, hk, he, by omega⟩ hw
      rw [if_pos hlt]
      unfold Conn.step
      dsimp only
      rw [he]
      exact ⟨_, rfl⟩

theorem conn_enabled {cfg : Config} {s : Sys} (hc : s.crashed = false) {c : Nat} {k k' : Conn} (hk : s.conns[c]? = some k) {e : Conn.Ev} (he : Sys.internal e = true)
    (h : k.step cfg e = some k') : ∃ s', s.step cfg (.conn c e) = some s' := by
  refine ⟨{ s with conns := s.conns.set c k' }, ?_⟩
  unfold Sys.step
  rw [if_neg (by rw [hc]; simp)]
  dsimp only
  rw [if_pos he, hk]
  dsimp only
  rw [h]

/-- **C47** (part). In every state of every execution: the processor goes on if it has a request and no channel sends left to do; if its next
channel send is blocked, the connection it waits for has a step to make (and every such step takes something from the channel, or is a step of its clean-up, or
sends one of its requests) — or that connection waits for the processor in turn, or has ended; a connection that wants to send a request can do
so unless the request channel is full. Missing: both exceptions happen (`C47_false`, `C47_gone_false`). -/
theorem C47_progress_partial (cfg : Config) (es : List Sys.Ev) (s : Sys) (h : Sys.init.run cfg es = some s) (hc : s.crashed = false) :
    (s.todo = [] → s.reqCh ≠ [] → ∃ s', s.step cfg .proc = some s') ∧
    (s.todo ≠ [] → (∃ s', s.step cfg .push = some s') ∨ ∃ c, Spec.ProcessorWaitsFor s c) ∧
    (∀ c, Spec.ProcessorWaitsFor s c → (∃ e s', Spec.Moves c e ∧ s.step cfg e = some s') ∨ Spec.WaitsForProcessor s c ∨ Spec.Gone s c) ∧
    (∀ c k, s.conns[c]? = some k → k.outbox ≠ [] → (∃ s', s.step cfg (.flush c) = some s') ∨ 128 ≤ s.reqCh.length) := by
  have hi := (sys_induction (P := fun _ => True) trivial (fun _ _ _ _ _ _ => trivial) es s h hc).1
  refine ⟨fun h1 h2 => ?_, fun h1 => ?_, fun c hw => ?_, fun c k hk ho => ?_⟩
  · cases hr : s.reqCh with
    | nil => exact absurd hr h2
    | cons r rs =>
      refine ⟨({ s with reqCh := rs } : Sys).handle r, ?_⟩
      unfold Sys.step
      rw [if_neg (by rw [hc]; simp)]
      dsimp only
      rw [h1, hr]
  · cases ht : s.todo with
    | nil => exact absurd ht h1
    | cons d t =>
      cases d with
      | queue r =>
        obtain ⟨x, hx, _⟩ := hi.full r (by rw [ht]; unfold todoSubs; simp)
        obtain ⟨k, hk, _, _⟩ := look_some hx
        by_cases hl : k.subCh.length < maxPending
        · left
          refine ⟨{ s with conns := s.conns.set r.conn { k with subCh := k.subCh ++ [r.idx] }, todo := t }, ?_⟩
          unfold Sys.step
          rw [if_neg (by rw [hc]; simp)]
          dsimp only
          rw [ht]; dsimp only; rw [hk]; dsimp only
          unfold Conn.step; dsimp only
          rw [if_pos hl]
        · exact Or.inr ⟨r.conn, k, hk, Or.inr ⟨r.idx, t, ht, by unfold maxPending at hl; omega⟩⟩
      | topic dest r m =>
        obtain ⟨_, x, hx, _⟩ := (addr_run h hc).t dest r (hi.due dest r m (by rw [ht]; simp))
        obtain ⟨k, hk, _, _⟩ := look_some hx
        by_cases hf : (deref k.heap r.idx).frame.isSome
        · left
          refine ⟨{ s with crashed := true }, ?_⟩
          unfold Sys.step
          rw [if_neg (by rw [hc]; simp)]
          dsimp only
          rw [ht]; dsimp only; rw [hk]; dsimp only
          rw [if_pos hf]
        · by_cases hl : k.writeCh.length < maxPending
          · left
            have hs : (s.step cfg .push).isSome = true := by
              unfold Sys.step
              rw [if_neg (by rw [hc]; simp)]
              dsimp only
              rw [ht]; dsimp only; rw [hk]; dsimp only
              rw [if_neg hf]
              unfold Conn.step; dsimp only
              rw [if_pos hl]; rfl
            exact Option.isSome_iff_exists.1 hs
          · exact Or.inr ⟨r.conn, k, hk, Or.inl ⟨dest, r.idx, m, t, ht, by unfold maxPending at hl; omega⟩⟩
  · by_cases hwp : Spec.WaitsForProcessor s c
    · exact Or.inr (Or.inl hwp)
    · obtain ⟨k, hk, hfull⟩ := hw
      by_cases ho : k.outbox = []
      · have hclean : ∀ {k'}, k.cleanStep = some k' → ∃ e s', Spec.Moves c e ∧ s.step cfg e = some s' := by
          intro k' hcs
          obtain ⟨s', hs'⟩ := conn_enabled (cfg := cfg) hc hk (e := .clean) (k' := k') rfl (by
            unfold Conn.step; dsimp only; rw [if_pos (by rw [ho]; rfl)]; exact hcs)
          exact ⟨.conn c .clean, s', (rfl : c = c), hs'⟩
        cases hst : k.stage with
        | run =>
          left
          have ha : k.atSelect = true := by unfold Conn.atSelect; rw [hst, ho]; rfl
          rcases hfull with ⟨d, i, m, t, _, hl⟩ | ⟨i, t, _, hl⟩
          · cases hwc : k.writeCh with
            | nil => rw [hwc] at hl; simp at hl
            | cons x w =>
              obtain ⟨s', hs'⟩ := conn_enabled (cfg := cfg) hc hk (e := .wr true) rfl (by
                unfold Conn.step; dsimp only; rw [if_pos ha, hwc])
              exact ⟨.conn c (.wr true), s', (rfl : c = c), hs'⟩
          · cases hsc : k.subCh with
            | nil => rw [hsc] at hl; simp at hl
            | cons x w =>
              obtain ⟨s', hs'⟩ := conn_enabled (cfg := cfg) hc hk (e := .sub true) rfl (by
                unfold Conn.step; dsimp only; rw [if_pos ha, hsc])
              exact ⟨.conn c (.sub true), s', (rfl : c = c), hs'⟩
        | unsub =>
          left
          obtain ⟨s', hs'⟩ := conn_enabled (cfg := cfg) hc hk (e := .cleanUnsub (k.subs.map (·.2))) rfl (by
            unfold Conn.step; dsimp only
            rw [if_pos (by rw [ho, hst]; simp [List.isPerm_iff])])
          exact ⟨.conn c (.cleanUnsub (k.subs.map (·.2))), s', (rfl : c = c), hs'⟩
        | closed => exact Or.inr (Or.inr ⟨k, hk, hst⟩)
        | discard1 => exact Or.inl (hclean (by unfold Conn.cleanStep; rw [hst]))
        | acklist => exact Or.inl (hclean (by unfold Conn.cleanStep; rw [hst]))
        | discard2 => exact Or.inl (hclean (by unfold Conn.cleanStep; rw [hst]))
        | drain1 => exact Or.inl (hclean (by unfold Conn.cleanStep; rw [hst]))
        | announce => exact Or.inl (hclean (by unfold Conn.cleanStep; rw [hst]))
        | discard3 => exact Or.inl (hclean (by unfold Conn.cleanStep; rw [hst]))
        | drain2 => exact Or.inl (hclean (by unfold Conn.cleanStep; rw [hst]))
      · obtain ⟨s', hs'⟩ := flush_enabled (cfg := cfg) hc hk ho hwp
        exact Or.inl ⟨.flush c, s', (rfl : c = c), hs'⟩
  · by_cases hl : 128 ≤ s.reqCh.length
    · exact Or.inr hl
    · exact Or.inl (flush_enabled hc hk ho (fun ⟨_, _, _, _, _, h⟩ => hl h))

/-! ## Waiting forever -/

/-- Connection `c` and the processor are in the same situation as before. -/
structure Jam (c : Nat) (k0 : Conn) (s0 s : Sys) : Prop where
  conn : ∃ k, s.conns[c]? = some k ∧ k.stage = k0.stage ∧ k.outbox = k0.outbox ∧ k.writeCh = k0.writeCh ∧ k.subCh = k0.subCh ∧ k.heap = k0.heap
  todo : s.todo = s0.todo
  req : s0.reqCh <+: s.reqCh

/-- The processor waits for `c`, and `c` waits for it or has ended. -/
structure Jammed (c : Nat) (k0 : Conn) (s0 : Sys) : Prop where
  head : (∃ d i m t, s0.todo = .topic d ⟨c, i⟩ m :: t ∧ 16 ≤ k0.writeCh.length ∧ (deref k0.heap i).frame = none) ∨
    (∃ i t, s0.todo = .queue ⟨c, i⟩ :: t ∧ 16 ≤ k0.subCh.length)
  still : (∃ r o, k0.outbox = .req r :: o ∧ 128 ≤ s0.reqCh.length) ∨ k0.outbox = [] ∧ k0.stage = .closed

theorem jam_step {cfg : Config} {c : Nat} {k0 : Conn} {s0 s s' : Sys} {e : Sys.Ev} (h0 : Jammed c k0 s0) (hj : Jam c k0 s0 s) (h : s.step cfg e = some s') :
    Jam c k0 s0 s' := by
  obtain ⟨⟨k, hk, h1, h2, h3, h4, h5⟩, ht, hr⟩ := hj
  unfold Sys.step at h
  split at h
  · cases h
  · have hne : s.todo ≠ [] := by
      rw [ht]; rcases h0.head with ⟨_, _, _, _, h, _⟩ | ⟨_, _, h, _⟩ <;> rw [h] <;> simp
    have hsel : k.atSelect = false := by
      unfold Conn.atSelect
      rcases h0.still with ⟨r, o, h, _⟩ | ⟨_, h⟩
      · rw [h2, h]; simp
      · rw [h1, h]; rfl
    cases e with
    | accept =>
      dsimp only at h; injection h with h; subst h
      refine ⟨⟨k, ?_, h1, h2, h3, h4, h5⟩, ht, hr⟩
      show (s.conns ++ [_])[c]? = some k
      rw [List.getElem?_append_left (List.getElem?_eq_some_iff.1 hk).1]; exact hk
    | conn c' e =>
      dsimp only at h
      split at h
      · rename_i hint
        split at h
        · cases h
        · rename_i kk hkk
          split at h
          · cases h
          · rename_i kk' hst
            injection h with h; subst h
            by_cases hcc : c' = c
            · subst hcc
              rw [hk] at hkk; injection hkk with hkk; subst hkk
              have : kk'.stage = k.stage ∧ kk'.outbox = k.outbox ∧ kk'.writeCh = k.writeCh ∧ kk'.subCh = k.subCh ∧ kk'.heap = k.heap := by
                unfold Conn.step at hst
                cases e with
                | recv f => dsimp only at hst; split at hst <;> cases hst; exact ⟨rfl, rfl, rfl, rfl, rfl⟩
                | readErr => dsimp only at hst; split at hst <;> cases hst; exact ⟨rfl, rfl, rfl, rfl, rfl⟩
                | frame => dsimp only at hst; rw [hsel] at hst; cases hst
                | readClosed => dsimp only at hst; rw [hsel] at hst; cases hst
                | wr => dsimp only at hst; rw [hsel] at hst; cases hst
                | sub => dsimp only at hst; rw [hsel] at hst; cases hst
                | timer => dsimp only at hst; rw [hsel] at hst; cases hst
                | clean =>
                  dsimp only at hst
                  rcases h0.still with ⟨r, o, h, _⟩ | ⟨h, hcl⟩
                  · rw [h2, h] at hst; cases hst
                  · rw [h2, h] at hst
                    rw [if_pos (by rfl)] at hst
                    unfold Conn.cleanStep at hst
                    rw [h1, hcl] at hst; cases hst
                | cleanUnsub o =>
                  dsimp only at hst
                  rcases h0.still with ⟨r, o, h, _⟩ | ⟨h, hcl⟩
                  · rw [h2, h] at hst; cases hst
                  · rw [h1, hcl, h2, h] at hst; cases hst
                | flushed => cases hint
                | setFrame => cases hint
                | setInList => cases hint
                | pushSub => cases hint
                | pushTopic => cases hint
              obtain ⟨a1, a2, a3, a4, a5⟩ := this
              refine ⟨⟨kk', ?_, a1.trans h1, a2.trans h2, a3.trans h3, a4.trans h4, a5.trans h5⟩, ht, hr⟩
              show (s.conns.set c' kk')[c']? = some kk'
              rw [get_set hk, if_pos rfl]
            · refine ⟨⟨k, ?_, h1, h2, h3, h4, h5⟩, ht, hr⟩
              show (s.conns.set c' kk')[c]? = some k
              rw [get_set hkk, if_neg hcc]; exact hk
      · cases h
    | flush c' =>
      dsimp only at h
      split at h
      · cases h
      · rename_i kk hkk
        split at h
        · cases h
        · injection h with h; subst h; exact ⟨⟨k, hk, h1, h2, h3, h4, h5⟩, ht, hr⟩
        · rename_i r o ho
          split at h
          · rename_i hlt
            split at h
            · cases h
            · rename_i kk' hst
              injection h with h; subst h
              by_cases hcc : c' = c
              · subst hcc
                exfalso
                rw [hk] at hkk; injection hkk with hkk; subst hkk
                rcases h0.still with ⟨r, o, _, hl⟩ | ⟨hn, _⟩
                · have := hr.length_le
                  unfold Sys.reqCap at hlt; omega
                · rw [h2, hn] at ho; cases ho
              · refine ⟨⟨k, ?_, h1, h2, h3, h4, h5⟩, ht, hr.trans (List.prefix_append _ _)⟩
                show (s.conns.set c' kk')[c]? = some k
                rw [get_set hkk, if_neg hcc]; exact hk
          · cases h
    | proc =>
      dsimp only at h
      split at h
      · rename_i hn _; exact absurd hn hne
      · cases h
    | push =>
      dsimp only at h
      rw [ht] at h
      rcases h0.head with ⟨d, i, m, t, he, hl, hf⟩ | ⟨i, t, he, hl⟩
      · rw [he] at h
        dsimp only at h
        rw [hk] at h
        dsimp only at h
        rw [h5, hf, if_neg (by simp)] at h
        unfold Conn.step at h
        dsimp only at h
        rw [h3, if_neg (by unfold maxPending; omega)] at h
        cases h
      · rw [he] at h
        dsimp only at h
        rw [hk] at h
        dsimp only at h
        unfold Conn.step at h
        dsimp only at h
        rw [h4, if_neg (by unfold maxPending; omega)] at h
        cases h

theorem jam_run {cfg : Config} {c : Nat} {k0 : Conn} {s0 : Sys} (h0 : Jammed c k0 s0) (es : List Sys.Ev) (s s' : Sys) (hj : Jam c k0 s0 s)
    (h : s.run cfg es = some s') : Jam c k0 s0 s' := by
  induction es generalizing s with
  | nil => simp only [Sys.run, Option.some.injEq] at h; subst h; exact hj
  | cons e es ih =>
    simp only [Sys.run] at h
    split at h
    · cases h
    · rename_i s1 h1; exact ih s1 (jam_step h0 hj h1) h

theorem Jam.waits {c : Nat} {k0 : Conn} {s0 s : Sys} (h0 : Jammed c k0 s0) (hj : Jam c k0 s0 s) :
    Spec.ProcessorWaitsFor s c ∧ (Spec.WaitsForProcessor s c ∨ Spec.Gone s c) := by
  obtain ⟨⟨k, hk, h1, h2, h3, h4, h5⟩, ht, hr⟩ := hj
  refine ⟨⟨k, hk, ?_⟩, ?_⟩
  · rcases h0.head with ⟨d, i, m, t, he, hl, _⟩ | ⟨i, t, he, hl⟩
    · exact Or.inl ⟨d, i, m, t, ht.trans he, by rw [h3]; exact hl⟩
    · exact Or.inr ⟨i, t, ht.trans he, by rw [h4]; exact hl⟩
  · rcases h0.still with ⟨r, o, h, hl⟩ | ⟨_, h⟩
    · exact Or.inl ⟨k, r, o, hk, h2.trans h, Nat.le_trans hl hr.length_le⟩
    · exact Or.inr ⟨k, hk, h1.trans h⟩

/-- A message for a topic. -/
def topicSend : Frame := ⟨b!"SEND", [(b!"destination", b!"/topic/a")], []⟩

/-- A subscription to that topic. -/
def topicSub : Frame := ⟨b!"SUBSCRIBE", [(b!"id", b!"1"), (b!"destination", b!"/topic/a")], []⟩

/-- A client subscribes to a topic and sends 146 messages to it: 16 are in its channel, the processor has the next one in hand, 128 are in the
request channel, and the connection wants to send one more request. -/
def jamRun : List Sys.Ev :=
  connectRun 0 ++ frameRun 0 topicSub ++
  (List.replicate 16 (frameRun 0 topicSend ++ [.push])).flatten ++ frameRun 0 topicSend ++
  (List.replicate 128 [Sys.Ev.conn 0 (.recv topicSend), .conn 0 (.frame true true), .flush 0]).flatten ++
  [.conn 0 (.recv topicSend), .conn 0 (.frame true true)]

theorem jam_some : (Sys.init.run sampleCfg jamRun).isSome = true := by decide +kernel

/-- The state after it. -/
def jamSys : Sys := (Sys.init.run sampleCfg jamRun).get jam_some

/-- **C47** fails (1): one client that publishes to a topic it is subscribed to is enough. The processor waits for the connection, the connection for the processor, whatever
happens afterwards. -/
theorem C47_false : ∃ es s, Sys.init.run sampleCfg es = some s ∧ s.crashed = false ∧ s.conns.length = 1 ∧
    ∀ es' s', s.run sampleCfg es' = some s' → Spec.ProcessorWaitsFor s' 0 ∧ Spec.WaitsForProcessor s' 0 := by
  refine ⟨jamRun, jamSys, (Option.some_get _).symm, by decide +kernel, by decide +kernel, fun es' s' h => ?_⟩
  cases hk : jamSys.conns[0]? with
  | none => exact absurd hk (by decide +kernel)
  | some k0 =>
    have fact : jamSys.conns[0]?.map (fun k => (decide (16 ≤ k.writeCh.length), (deref k.heap 0).frame, decide (k.stage = .closed),
        (match k.outbox with | .req _ :: _ => true | _ => false))) = some (true, none, false, true) := by decide +kernel
    rw [hk] at fact
    simp only [Option.map_some, Option.some.injEq, Prod.mk.injEq] at fact
    obtain ⟨f1, f2, f3, f4⟩ := fact
    have head : ∃ d m t, jamSys.todo = .topic d ⟨0, 0⟩ m :: t := by
      have : (match jamSys.todo with | .topic _ r _ :: _ => decide (r = ⟨0, 0⟩) | _ => false) = true := by decide +kernel
      split at this
      · rename_i d r m t he; exact ⟨d, m, t, by rw [he]; rw [of_decide_eq_true this]⟩
      · cases this
    obtain ⟨d, m, t, hd⟩ := head
    have hout : ∃ r o, k0.outbox = .req r :: o := by
      split at f4
      · rename_i r o he; exact ⟨r, o, he⟩
      · cases f4
    obtain ⟨r, o, ho⟩ := hout
    have h0 : Jammed 0 k0 jamSys := ⟨Or.inl ⟨d, 0, m, t, hd, of_decide_eq_true f1, f2⟩, Or.inl ⟨r, o, ho, by decide +kernel⟩⟩
    obtain ⟨h1, h2⟩ := (jam_run h0 es' _ s' ⟨⟨k0, hk, rfl, rfl, rfl, rfl, rfl⟩, rfl, List.prefix_refl _⟩ h).waits h0
    refine ⟨h1, ?_⟩
    obtain ⟨k, hk', a1, a2, _⟩ := (jam_run h0 es' _ s' ⟨⟨k0, hk, rfl, rfl, rfl, rfl, rfl⟩, rfl, List.prefix_refl _⟩ h).conn
    rcases h2 with h2 | ⟨k', hk2, h2⟩
    · exact h2
    · rw [hk'] at hk2; injection hk2 with hk2; subst hk2
      rw [a1] at h2
      rw [h2] at f3; cases f3

/-- A subscriber of a topic goes away while 17 messages for the topic wait to be processed, before its unsubscription. -/
def goneRun : List Sys.Ev :=
  connectRun 0 ++ connectRun 1 ++ frameRun 0 topicSub ++
  (List.replicate 17 [Sys.Ev.conn 1 (.recv topicSend), .conn 1 (.frame true true), .flush 1]).flatten ++
  [.conn 0 .readErr, .conn 0 .readClosed, .conn 0 .clean, .conn 0 (.cleanUnsub [0]), .flush 0, .conn 0 .clean, .conn 0 .clean, .conn 0 .clean, .conn 0 .clean, .flush 0,
   .conn 0 .clean, .conn 0 .clean] ++ (List.replicate 16 [Sys.Ev.proc, .push]).flatten ++ [.proc]

theorem gone_some : (Sys.init.run sampleCfg goneRun).isSome = true := by decide +kernel

/-- The state after it. -/
def goneSys : Sys := (Sys.init.run sampleCfg goneRun).get gone_some

/-- **C47** fails (2): the processor fills the channel of a connection that has ended. Nobody will ever read from it: the processor, and with it the whole server, stands still for
ever. -/
theorem C47_gone_false : ∃ es s, Sys.init.run sampleCfg es = some s ∧ s.crashed = false ∧
    ∀ es' s', s.run sampleCfg es' = some s' → Spec.ProcessorWaitsFor s' 0 ∧ Spec.Gone s' 0 ∧ s'.todo = s.todo ∧ s.reqCh <+: s'.reqCh := by
  refine ⟨goneRun, goneSys, (Option.some_get _).symm, by decide +kernel, fun es' s' h => ?_⟩
  cases hk : goneSys.conns[0]? with
  | none => exact absurd hk (by decide +kernel)
  | some k0 =>
    have fact : goneSys.conns[0]?.map (fun k => (decide (16 ≤ k.writeCh.length), (deref k.heap 0).frame, decide (k.stage = .closed), decide (k.outbox = []))) =
        some (true, none, true, true) := by decide +kernel
    rw [hk] at fact
    simp only [Option.map_some, Option.some.injEq, Prod.mk.injEq] at fact
    obtain ⟨f1, f2, f3, f4⟩ := fact
    have head : ∃ d m t, goneSys.todo = .topic d ⟨0, 0⟩ m :: t := by
      have : (match goneSys.todo with | .topic _ r _ :: _ => decide (r = ⟨0, 0⟩) | _ => false) = true := by decide +kernel
      split at this
      · rename_i d r m t he; exact ⟨d, m, t, by rw [he]; rw [of_decide_eq_true this]⟩
      · cases this
    obtain ⟨d, m, t, hd⟩ := head
    have h0 : Jammed 0 k0 goneSys := ⟨Or.inl ⟨d, 0, m, t, hd, of_decide_eq_true f1, f2⟩, Or.inr ⟨of_decide_eq_true f4, of_decide_eq_true f3⟩⟩
    have hj := jam_run h0 es' _ s' ⟨⟨k0, hk, rfl, rfl, rfl, rfl, rfl⟩, rfl, List.prefix_refl _⟩ h
    obtain ⟨k, hk', a1, _⟩ := hj.conn
    exact ⟨(hj.waits h0).1, ⟨k, hk', a1.trans (of_decide_eq_true f3)⟩, hj.todo, hj.req⟩

-- C47_progress_partial: a request to process; and after the 17 messages the processor waits for a connection that can move.
example : ∃ s, Sys.init.run sampleCfg (goneRun.take 14 ++ [.conn 1 (.recv topicSend), .conn 1 (.frame true true), .flush 1]) = some s ∧ s.crashed = false ∧ s.todo = [] ∧
    s.reqCh.length = 1 := ⟨_, rfl, by decide +kernel, by decide +kernel, by decide +kernel⟩

/-- The first 17 messages of `jamRun`. -/
def waitRun : List Sys.Ev := connectRun 0 ++ frameRun 0 topicSub ++ (List.replicate 16 (frameRun 0 topicSend ++ [.push])).flatten ++ frameRun 0 topicSend

theorem wait_some : (Sys.init.run sampleCfg waitRun).isSome = true := by decide +kernel

/-- The state after them. -/
def waitSys : Sys := (Sys.init.run sampleCfg waitRun).get wait_some

example : Sys.init.run sampleCfg waitRun = some waitSys ∧ waitSys.crashed = false ∧ Spec.ProcessorWaitsFor waitSys 0 ∧
    (waitSys.step sampleCfg (.conn 0 (.wr true))).isSome = true := by
  refine ⟨(Option.some_get _).symm, by decide +kernel, ?_, by decide +kernel⟩
  have fact : waitSys.conns[0]?.map (fun k => decide (16 ≤ k.writeCh.length)) = some true := by decide +kernel
  have fact2 : (match waitSys.todo with | .topic _ r _ :: _ => decide (r = ⟨0, 0⟩) | _ => false) = true := by decide +kernel
  cases hk : waitSys.conns[0]? with
  | none => rw [hk] at fact; cases fact
  | some k =>
    rw [hk] at fact
    split at fact2
    · rename_i d r m t he
      have hr := of_decide_eq_true fact2; subst hr
      simp only [Option.map_some, Option.some.injEq, decide_eq_true_eq] at fact
      exact ⟨k, hk, Or.inl ⟨d, 0, m, t, he, fact⟩⟩
    · cases fact2

end Stomp.Server
