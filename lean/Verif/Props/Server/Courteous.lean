import Verif.Props.Server.Few
import Verif.Props.Server.Busy
import Verif.Proofs.Server.Received
import Verif.Spec.Courteous
/-!
# Property C89: a server whose clients are courteous does not crash and does not stand still
-/
namespace Stomp.Server
open Stomp

theorem Spec.Courteous.prefix {fs gs : List Frame} (h : Spec.Courteous gs) (hp : fs <+: gs) : Spec.Courteous fs := by
  have hs : ∀ f ∈ fs, f ∈ gs := fun f hf => hp.subset hf
  have ho : fs.filterMap Spec.opens <+: gs.filterMap Spec.opens := hp.filterMap _
  exact ⟨fun p hp => h.queues p (ho.subset hp), Nat.le_trans ho.length_le h.few, fun f hf => h.sends f (hs f hf),
    fun ⟨f, hf, hc⟩ q hq => h.acks ⟨f, hs f hf, hc⟩ q (hs q hq)⟩

theorem Spec.Courteous.modest {k : Conn} {gs : List Frame} (h : Spec.Courteous gs) (hp : k.hist <+: gs) : Spec.Modest k :=
  ⟨(h.prefix hp).queues, (h.prefix hp).few⟩

/-- Whoever has processed courteous frames only, is not the one who crashes the server. -/
theorem crash_not_courteous {cfg : Config} {es : List Sys.Ev} {s : Sys} (h : Sys.init.run cfg es = some s) (hc : s.crashed = true) :
    ∃ (c : Nat) (k : Conn), s.conns[c]? = some k ∧ ¬Spec.Courteous k.hist := by
  obtain ⟨c, k, hk, hbad⟩ := crash_culprit h hc
  obtain ⟨es0, e, s0, -, h0, hs⟩ := crash_last h hc
  have hnc := sys_crashed_step hs
  have hi := (sys_induction (P := fun _ => True) trivial (fun _ _ _ _ _ _ => trivial) es0 s0 h0 hnc).1
  obtain ⟨hconns, _⟩ := crash_cases hi (addr_run h0 hnc) hs hc
  have hk0 : s0.conns[c]? = some k := by rw [← hconns]; exact hk
  obtain ⟨ces, hr, _⟩ := conn_run h0 hnc hk0
  have ho := histOk_run hr
  refine ⟨c, k, hk, fun hcour => ?_⟩
  rcases hbad with ⟨f, h1, h2, h3⟩ | ⟨⟨f, h1, h2⟩, x, h4, h5, q, h6, h7⟩
  · obtain ⟨g, hg, rfl⟩ := ho.effective f h1
    have := hcour.sends g hg h2
    rw [show Spec.hdr g b!"destination" = Spec.hdr (Spec.clean g) b!"destination" from (clean_value g _ (by decide)).symm] at this
    rw [show Spec.hdr (Spec.clean g) b!"destination" = none from h3] at this
    cases this
  · obtain ⟨g, hg, rfl⟩ := ho.effective f h1
    have := hcour.acks ⟨g, hg, h2⟩ q h6 h7.command
    exact h5.1 (h7.ack.symm.trans this)

/-- **C89** (1). In every execution in which each client has sent courteous frames only: the server has not crashed, the processor never waits for a connection, and whenever it has something to do, it can do it. -/
theorem C89_safe (cfg : Config) (es : List Sys.Ev) (s : Sys) (h : Sys.init.run cfg es = some s) (hcl : ∀ c, Spec.Courteous (Spec.receivedBy c es)) :
    s.crashed = false ∧ (∀ c, ¬Spec.ProcessorWaitsFor s c) ∧ (s.todo ≠ [] → ∃ s', s.step cfg .push = some s') ∧
    (s.todo = [] → s.reqCh ≠ [] → ∃ s', s.step cfg .proc = some s') := by
  have hc : s.crashed = false := by
    cases hc : s.crashed with
    | false => rfl
    | true =>
      exfalso
      obtain ⟨c, k, hk, hbad⟩ := crash_not_courteous h hc
      obtain ⟨es0, e, s0, rfl, h0, hs⟩ := crash_last h hc
      have hnc := sys_crashed_step hs
      have hi := (sys_induction (P := fun _ => True) trivial (fun _ _ _ _ _ _ => trivial) es0 s0 h0 hnc).1
      obtain ⟨hconns, _⟩ := crash_cases hi (addr_run h0 hnc) hs hc
      have hrec := received_run h0 hnc (show s0.conns[c]? = some k by rw [← hconns]; exact hk)
      refine hbad ((hcl c).prefix ?_)
      unfold Spec.receivedBy at hrec ⊢
      rw [List.flatMap_append, ← hrec, List.append_assoc]
      exact List.prefix_append _ _
  have hm : ∀ (c : Nat) (k : Conn), s.conns[c]? = some k → Spec.Modest k := by
    intro c k hk
    refine (hcl c).modest ?_
    rw [← received_run h hc hk]
    exact List.prefix_append _ _
  obtain ⟨h1, h2, _⟩ := C47_modest_partial cfg es s h hc hm
  refine ⟨hc, fun c hw => ?_, h1, h2⟩
  obtain ⟨k, hk, _⟩ := id hw
  exact C47_cause_partial cfg es s h hc c k hk (hm c k hk) hw

/-- **C89** (2). Then, when the server can do nothing by itself, it has nothing left to do. -/
theorem C89_rest (cfg : Config) (es : List Sys.Ev) (s : Sys) (h : Sys.init.run cfg es = some s) (hcl : ∀ c, Spec.Courteous (Spec.receivedBy c es))
    (hs : Spec.Still cfg s) : Spec.Idle s := by
  obtain ⟨h1, h2, _⟩ := C89_safe cfg es s h hcl
  rcases C74_rest cfg es s h hs with hc | ⟨c, hc, _⟩ | hi
  · rw [h1] at hc; cases hc
  · exact absurd hc (h2 c)
  · exact hi

/-- **C89** (3). And it gets there from every such state: by itself, in finitely many steps, with every write succeeding. -/
theorem C89_settles (cfg : Config) (es : List Sys.Ev) (s : Sys) (h : Sys.init.run cfg es = some s) (hcl : ∀ c, Spec.Courteous (Spec.receivedBy c es)) :
    ∃ es' s', (∀ e ∈ es', Spec.Own e ∧ Spec.Smooth e) ∧ s.run cfg es' = some s' ∧ Spec.Idle s' := by
  obtain ⟨es', s', h1, h2, h3, _⟩ := C74_settles cfg es s h
  have hrun : Sys.init.run cfg (es ++ es') = some s' := by rw [sysRun_append es es' _ _ h]; exact h2
  refine ⟨es', s', h1, h2, C89_rest cfg (es ++ es') s' hrun (fun c => ?_) h3⟩
  have : Spec.receivedBy c es' = [] := by
    unfold Spec.receivedBy
    rw [List.flatMap_eq_nil_iff]
    intro e he
    have := (h1 e he).1
    split
    · exact absurd this (by simp [Spec.Own])
    · rfl
  have he : Spec.receivedBy c (es ++ es') = Spec.receivedBy c es := by
    unfold Spec.receivedBy at this ⊢
    rw [List.flatMap_append, this, List.append_nil]
  rw [he]
  exact hcl c

/-! ## Examples -/

/-- `Courteous`, decided. -/
def courteous (fs : List Frame) : Bool :=
  (fs.filterMap Spec.opens).all (fun p => decide (b!"/queue" <+: p.2)) && decide ((fs.filterMap Spec.opens).length ≤ 16) &&
  fs.all (fun f => decide (f.command = b!"SEND" → (Spec.hdr f b!"destination").isSome = true)) &&
  (fs.all (fun f => decide (f.command ≠ b!"ACK" ∧ f.command ≠ b!"NACK")) || fs.all (fun q => decide (q.command = b!"SUBSCRIBE" → (Spec.hdr q b!"ack").getD b!"auto" = b!"auto")))

theorem courteous_of {fs : List Frame} (h : courteous fs = true) : Spec.Courteous fs := by
  simp only [courteous, Bool.and_eq_true, Bool.or_eq_true, List.all_eq_true, decide_eq_true_eq] at h
  obtain ⟨⟨⟨h1, h2⟩, h3⟩, h4⟩ := h
  refine ⟨h1, h2, h3, fun ⟨f, hf, hc⟩ => ?_⟩
  rcases h4 with h4 | h4
  · rcases hc with hc | hc
    · exact absurd hc (h4 f hf).1
    · exact absurd hc (h4 f hf).2
  · exact h4

/-- Connection 0 makes 16 subscriptions, connection 1 sends a message to each of the 16 queues; the last one is still to be handed over. Connection 2 subscribes in mode `auto`, and sends an ACK all the same. -/
def kindRun : List Sys.Ev := manyRun 16 ++ [.push] ++ connectRun 2 ++ frameRun 2 (queueSub b!"9" b!"auto") ++ frameRun 1 queueSend ++
  [.conn 2 (.recv ⟨b!"ACK", [(b!"message-id", b!"1"), (b!"subscription", b!"9")], []⟩)]

theorem kind_some : (Sys.init.run sampleCfg kindRun).isSome = true := by decide +kernel

theorem kind_courteous (c : Nat) : Spec.Courteous (Spec.receivedBy c kindRun) := by
  refine courteous_of ?_
  by_cases h0 : c = 0
  · subst h0; decide +kernel
  by_cases h1 : c = 1
  · subst h1; decide +kernel
  by_cases h2 : c = 2
  · subst h2; decide +kernel
  · have : Spec.receivedBy c kindRun = [] := by
      unfold Spec.receivedBy
      rw [List.flatMap_eq_nil_iff]
      have hall : kindRun.all (fun | .conn j (.recv _) => decide (j < 3) | _ => true) = true := by decide +kernel
      intro e he
      have := List.all_eq_true.1 hall e he
      split
      · rename_i j f
        dsimp only at this
        have := of_decide_eq_true this
        rw [if_neg (by omega)]
      · rfl
    rw [this]; rfl

-- C89_safe, C89_settles: this run; the channel of connection 0 is as full as it can get, and there are things to do.
example : Sys.init.run sampleCfg kindRun = some ((Sys.init.run sampleCfg kindRun).get kind_some) ∧ (∀ c, Spec.Courteous (Spec.receivedBy c kindRun)) ∧
    ((Sys.init.run sampleCfg kindRun).get kind_some).conns.map (·.subCh.length) = [16, 0, 0] ∧ ((Sys.init.run sampleCfg kindRun).get kind_some).todo.length = 1 ∧
    ((Sys.init.run sampleCfg kindRun).get kind_some).conns.map (·.inq.length) = [0, 0, 1] :=
  ⟨(Option.some_get _).symm, kind_courteous, by decide +kernel, by decide +kernel, by decide +kernel⟩

/-- The same, until nothing is left to do. -/
def kindRest : List Sys.Ev := [.push] ++ (List.replicate 16 [Sys.Ev.conn 0 (.sub true), .flush 0, .proc]).flatten ++
  [.conn 2 (.sub true), .flush 2, .proc, .conn 2 (.frame true true)]

-- C89_rest: nothing is left to do, and the 16 messages and the one for connection 2 are written.
example : ∃ s, Sys.init.run sampleCfg (kindRun ++ kindRest) = some s ∧ Spec.Idle s ∧ s.conns.map (fun k => (k.out.filterMap (·.tag)).length) = [16, 0, 1] :=
  ⟨_, (Option.some_get (by decide +kernel : (Sys.init.run sampleCfg (kindRun ++ kindRest)).isSome = true)).symm, by decide +kernel, by decide +kernel⟩

end Stomp.Server
