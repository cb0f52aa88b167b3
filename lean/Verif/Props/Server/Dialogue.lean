import Verif.Proofs.Server.Rules
import Verif.Props.Server.Acks
/-! # C78: what the server answers is determined by the frames it reads

The rules are those of `Spec/Session` (what a frame means) and `Spec/Dialogue` (what is answered, and why a frame is refused). -/
namespace Stomp.Server
open Stomp

/-- **C78 (the rules).** In every state every frame either has a meaning or is refused, not both, and there is one meaning, one answer and one
reason. -/
theorem C78_decided (auth : Bytes → Bytes → Bool) (wrong : Bytes → Bytes) (min : Int) (st : Spec.St) (f : Frame) :
    ((∃ st', Spec.Step auth st f st') ∨ ∃ late t, Spec.Refused auth wrong st f late t) ∧
    (∀ st' late t, Spec.Step auth st f st' → ¬Spec.Refused auth wrong st f late t) ∧
    (∀ st' st'', Spec.Step auth st f st' → Spec.Step auth st f st'' → st' = st'') ∧
    (∀ a a', Spec.Answer auth min st f a → Spec.Answer auth min st f a' → a = a') ∧
    (∀ late t late' t', Spec.Refused auth wrong st f late t → Spec.Refused auth wrong st f late' t' → late = late' ∧ t = t') := by
  refine ⟨step_or_refused auth wrong st f, fun st' l t h h' => ?_, fun _ _ h h' => (step_meaning h).trans (step_meaning h').symm, fun _ _ => answer_unique,
    fun l t l' t' h h' => ?_⟩
  · have := refused_reason h'
    rw [step_reason h] at this
    cases this
  · have := refused_reason h
    rw [refused_reason h'] at this
    injection this with this
    injection this with h1 h2
    exact ⟨h1.symm, h2.symm⟩

/-- **C78.** As long as no write fails, what the server writes on a connection (apart from MESSAGE frames and heart-beats) is what the rules say
about the frames it has read: the answers to a session, and if the last frame is against the rules the ERROR frame with the reason, after which
the connection is being closed. This is so for every run of the server, whatever its other connections do. -/
theorem C78_answers {cfg : Config} {es : List Sys.Ev} {s : Sys} {i : Nat} {c : Conn} (h : Sys.init.run cfg es = some s) (ha : s.crashed = false)
    (hc : s.conns[i]? = some c) (hw : c.wfail = false) :
    (∃ st, Spec.Dialogue cfg.auth cfg.heartBeat c.hist st (Spec.spoken (c.out.map (·.frame)))) ∨
    (c.stage ≠ .run ∧ ∃ h f st said late t, c.hist = h ++ [f] ∧ Spec.Dialogue cfg.auth cfg.heartBeat h st said ∧
      Spec.Refused cfg.auth cfg.parseErr st f late t ∧ Spec.spoken (c.out.map (·.frame)) = said ++ Spec.refusalOf f late t) := by
  obtain ⟨es', hr, henv⟩ := conn_run h ha hc
  rcases talk_run henv hr with h | ⟨st, h, _⟩ | h
  · rw [hw] at h; cases h.1
  · exact Or.inl ⟨st, h⟩
  · exact Or.inr h

/-- **C78 (writes that fail).** If a write has failed, what the server has written is a beginning of what the rules say. -/
theorem C78_failing {cfg : Config} {es : List Sys.Ev} {s : Sys} {i : Nat} {c : Conn} (h : Sys.init.run cfg es = some s) (ha : s.crashed = false)
    (hc : s.conns[i]? = some c) :
    ∃ fs full, fs <+: c.hist ∧ Spec.Script cfg.auth cfg.parseErr cfg.heartBeat fs full ∧ Spec.spoken (c.out.map (·.frame)) <+: full := by
  obtain ⟨es', hr, henv⟩ := conn_run h ha hc
  rcases talk_run henv hr with ⟨_, h⟩ | ⟨st, h, _⟩ | ⟨_, h, f, st, said, late, t, h1, h2, h3, h4⟩
  · exact h
  · exact ⟨_, _, List.prefix_refl _, .session h, List.prefix_refl _⟩
  · exact ⟨_, _, List.prefix_refl _, by rw [h1, h4]; exact .refused h2 h3, List.prefix_refl _⟩

theorem answer_error {auth : Bytes → Bytes → Bool} {min : Int} {st : Spec.St} {f : Frame} {a : List Frame} (h : Spec.Answer auth min st f a) :
    ∀ g ∈ a, g.command ≠ b!"ERROR" := by
  cases h with
  | welcome => intro g hg; rw [List.mem_singleton] at hg; subst hg; show b!"CONNECTED" ≠ _; decide
  | silence => intro g hg; cases hg
  | receipt =>
    intro g hg
    obtain ⟨r, _, rfl⟩ := List.mem_map.1 hg
    show b!"RECEIPT" ≠ _
    decide

theorem dialogue_error {auth : Bytes → Bytes → Bool} {min : Int} {fs : List Frame} {st : Spec.St} {said : List Frame}
    (h : Spec.Dialogue auth min fs st said) : ∀ g ∈ said, g.command ≠ b!"ERROR" := by
  induction h with
  | start => intro g hg; cases hg
  | next _ _ ha ih =>
    intro g hg
    rcases List.mem_append.1 hg with hg | hg
    · exact ih g hg
    · exact answer_error ha g hg

/-- The ERROR frame of a refusal. -/
theorem refusal_error {f : Frame} {late : Bool} {t : Bytes} {g : Frame} (hg : g ∈ Spec.refusalOf f late t) (he : g.command = b!"ERROR") :
    ∃ rest, g = ⟨b!"ERROR", (b!"message", t) :: rest, []⟩ ∧
      rest = if late then [] else (Spec.hdr f b!"receipt").toList.map (fun r => (b!"receipt-id", r)) := by
  unfold Spec.refusalOf at hg
  cases late with
  | true =>
    rw [if_pos rfl] at hg
    rcases List.mem_append.1 hg with hg | hg
    · obtain ⟨r, _, rfl⟩ := List.mem_map.1 hg
      exact absurd he (show b!"RECEIPT" ≠ _ by decide)
    · rw [List.mem_singleton] at hg; exact ⟨[], hg, rfl⟩
  | false =>
    rw [if_neg (by simp), List.mem_singleton] at hg
    exact ⟨_, hg, rfl⟩

/-- **C78 (every ERROR frame has its reason).** Every ERROR frame the server has written to a client was for a frame of this client that is against
the rules, and has the reason. -/
theorem C78_error {cfg : Config} {es : List Sys.Ev} {s : Sys} {i : Nat} {c : Conn} (h : Sys.init.run cfg es = some s) (ha : s.crashed = false)
    (hc : s.conns[i]? = some c) {g : Frame} (hg : some g ∈ c.out.map (·.frame)) (he : g.command = b!"ERROR") :
    ∃ fs f st said late t, fs ++ [f] <+: c.hist ∧ Spec.Dialogue cfg.auth cfg.heartBeat fs st said ∧
      Spec.Refused cfg.auth cfg.parseErr st f late t ∧
      g = ⟨b!"ERROR", (b!"message", t) :: (if late then [] else (Spec.hdr f b!"receipt").toList.map (fun r => (b!"receipt-id", r))), []⟩ := by
  obtain ⟨fs, full, h1, h2, h3⟩ := C78_failing h ha hc
  have hs : g ∈ Spec.spoken (c.out.map (·.frame)) := by
    unfold Spec.spoken
    exact List.mem_filter.2 ⟨List.mem_filterMap.2 ⟨_, hg, rfl⟩, by rw [he]; decide⟩
  have hf := h3.mem hs
  cases h2 with
  | session hd => exact absurd he (dialogue_error hd g hf)
  | @refused fs said st f late t hd hr =>
    rcases List.mem_append.1 hf with hf | hf
    · exact absurd he (dialogue_error hd g hf)
    · obtain ⟨rest, e1, e2⟩ := refusal_error hf he
      subst e2
      exact ⟨fs, f, st, said, late, t, h1, hd, hr, e1⟩

/-- **C78 (a frame of the rules is never refused, one against them always is).** -/
theorem C78_refused {cfg : Config} {es : List Sys.Ev} {s : Sys} {i : Nat} {c : Conn} (h : Sys.init.run cfg es = some s) (ha : s.crashed = false)
    (hc : s.conns[i]? = some c) (hw : c.wfail = false) {fs : List Frame} {f : Frame} (hh : c.hist = fs ++ [f]) {st : Spec.St} {said : List Frame}
    (hd : Spec.Dialogue cfg.auth cfg.heartBeat fs st said) :
    (∀ late t, Spec.Refused cfg.auth cfg.parseErr st f late t →
      c.stage ≠ .run ∧ Spec.spoken (c.out.map (·.frame)) = said ++ Spec.refusalOf f late t) ∧
    (∀ st' a, Spec.Step cfg.auth st f st' → Spec.Answer cfg.auth cfg.heartBeat st f a → Spec.spoken (c.out.map (·.frame)) = said ++ a) := by
  have hdec := C78_decided cfg.auth cfg.parseErr cfg.heartBeat st f
  rcases C78_answers h ha hc hw with ⟨st1, h1⟩ | ⟨hst, fs', f', st', said', late', t', e, h1, h2, h3⟩
  · obtain ⟨st0, said0, h2, h3⟩ := dialogue_last h1 hh
    obtain ⟨rfl, rfl⟩ := dialogue_unique hd h2 rfl
    refine ⟨fun late t hr => absurd hr (hdec.2.1 _ _ _ h3), fun st'' a h4 h5 => ?_⟩
    exact (dialogue_unique h1 (hd.next h4 h5) hh).2
  · rw [hh] at e
    obtain ⟨e1, e2⟩ := List.append_inj' e rfl
    injection e2 with e2
    subst e1 e2
    obtain ⟨rfl, rfl⟩ := dialogue_unique hd h1 rfl
    refine ⟨fun late t hr => ?_, fun st'' a h4 h5 => absurd h2 (hdec.2.1 _ _ _ h4)⟩
    obtain ⟨rfl, rfl⟩ := hdec.2.2.2.2 _ _ _ _ hr h2
    exact ⟨hst, h3⟩

/-- **C78 (determined).** Two connections, in whatever servers with the same settings, from which the same frames have been read have been told
the same. -/
theorem C78_determined {cfg : Config} {es es' : List Sys.Ev} {s s' : Sys} {i j : Nat} {c d : Conn} (h : Sys.init.run cfg es = some s)
    (h' : Sys.init.run cfg es' = some s') (ha : s.crashed = false) (ha' : s'.crashed = false) (hc : s.conns[i]? = some c) (hd : s'.conns[j]? = some d)
    (hw : c.wfail = false) (hw' : d.wfail = false) (e : c.hist = d.hist) :
    Spec.spoken (c.out.map (·.frame)) = Spec.spoken (d.out.map (·.frame)) := by
  rcases C78_answers h' ha' hd hw' with ⟨st, h1⟩ | ⟨_, fs, f, st, said, late, t, e1, h1, h2, h3⟩
  · rcases C78_answers h ha hc hw with ⟨st0, h0⟩ | ⟨_, fs, f, st0, said, late, t, e1, h2, h3, h4⟩
    · exact (dialogue_unique h0 h1 e).2
    · obtain ⟨st2, said2, h5, h6⟩ := dialogue_last h1 (e.symm.trans e1)
      obtain ⟨rfl, rfl⟩ := dialogue_unique h2 h5 rfl
      exact absurd h3 ((C78_decided cfg.auth cfg.parseErr cfg.heartBeat _ f).2.1 _ _ _ h6)
  · rw [((C78_refused h ha hc hw (e.trans e1) h1).1 late t h2).2, h3]

/-- Two clients. The first subscribes, sends a message with a receipt and then wants a receipt for the end of a subscription it does not have;
the second sends a message in between. -/
def refusedRun : List Sys.Ev :=
  connectRun 0 ++ connectRun 1 ++ frameRun 0 (queueSub b!"1" b!"auto") ++ frameRun 1 queueSend ++
  [.push, .conn 0 (.recv ⟨b!"SEND", [(b!"destination", b!"/queue/b"), (b!"receipt", b!"7")], [2]⟩), .conn 0 (.frame true true), .flush 0, .proc,
    .conn 0 (.sub true), .flush 0, .proc,
    .conn 0 (.recv ⟨b!"UNSUBSCRIBE", [(b!"id", b!"2"), (b!"receipt", b!"8")], []⟩), .conn 0 (.frame true true)]

-- What the first client has been told: the MESSAGE is not part of it.
example : (Sys.init.run sampleCfg refusedRun).isSome = true ∧
    ((Sys.init.run sampleCfg refusedRun).bind (fun s => s.conns[0]?)).map (fun c => (c.wfail, c.hist.length, c.stage, c.out.length,
      Spec.spoken (c.out.map (·.frame)))) =
    some (false, 4, .discard1, 4,
      [⟨b!"CONNECTED", [(b!"version", b!"1.1"), (b!"server", b!"stompd/x.y.z"), (b!"heart-beat", b!"0,0")], []⟩,
       ⟨b!"RECEIPT", [(b!"receipt-id", b!"7")], []⟩,
       ⟨b!"ERROR", [(b!"message", b!"subscription not found"), (b!"receipt-id", b!"8")], []⟩]) := by
  decide +kernel

-- C78_decided, C78_refused: the last frame is against the rules, whatever the transactions.
example (st : Spec.St) (ho : st.opened = true) (hs : st.subs b!"2" = false) :
    Spec.Refused sampleCfg.auth sampleCfg.parseErr st ⟨b!"UNSUBSCRIBE", [(b!"id", b!"2"), (b!"receipt", b!"8")], []⟩ false b!"subscription not found" ∧
    Spec.refusalOf ⟨b!"UNSUBSCRIBE", [(b!"id", b!"2"), (b!"receipt", b!"8")], []⟩ false b!"subscription not found" =
      [⟨b!"ERROR", [(b!"message", b!"subscription not found"), (b!"receipt-id", b!"8")], []⟩] :=
  ⟨.notFound ho rfl b!"2" (by decide) hs, by decide⟩

-- C78_decided: a first frame with a meaning, and what is answered to it.
example : Spec.Step sampleCfg.auth Spec.St.init sampleConnect { Spec.St.init with opened := true } ∧
    Spec.Answer sampleCfg.auth sampleCfg.heartBeat Spec.St.init sampleConnect
      [⟨b!"CONNECTED", [(b!"version", b!"1.1"), (b!"server", b!"stompd/x.y.z"), (b!"heart-beat", b!"0,0")], []⟩] := by
  have ha : Spec.accepts sampleCfg.auth sampleConnect :=
    (accepts_iff sampleCfg sampleConnect).2 ⟨b!"1.1", 0, 0, Or.inl rfl, rfl, by decide, rfl, by decide, rfl⟩
  have hb : Spec.beats sampleConnect 0 0 := Or.inr ⟨b!"0", b!"0", by decide, by refine ⟨by decide, by decide, by decide⟩, by refine ⟨by decide, by decide, by decide⟩, by decide, by decide⟩
  refine ⟨.connect rfl ha, .welcome rfl ha b!"1.1" 0 0 hb (Or.inr ⟨rfl, ⟨b!"1.1,1.0", by decide, by decide⟩, ?_⟩)⟩
  rintro ⟨av, h1, h2⟩
  have h3 : Spec.hdr sampleConnect b!"accept-version" = some b!"1.1,1.0" := by decide
  rw [h3] at h1
  injection h1 with h1
  subst h1
  revert h2
  decide

end Stomp.Server
