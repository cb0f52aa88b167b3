import Verif.Spec.Residue
import Verif.Proofs.Server.SilentRun
import Verif.Props.Server.Subscriptions
import Verif.Props.Server.Replies
/-!
# C46: after DISCONNECT

`C46_false` (in `Replies`) says that a client may go on after its DISCONNECT as if nothing had happened. Here is what a client can rely on that sends nothing after it, as the library's does.
-/
namespace Stomp.Server
open Stomp
open Stomp.Spec (firstValue)

theorem silent_snoc {cfg : Config} {s s1 s2 : Sys} {es : List Sys.Ev} {e : Sys.Ev} (h : s.run cfg es = some s1) (hs : s1.step cfg e = some s2) :
    s.run cfg (es ++ [e]) = some s2 := by
  induction es generalizing s with
  | nil => simp only [Sys.run, Option.some.injEq] at h; subst h; simp only [List.nil_append, Sys.run, hs]
  | cons a es ih =>
    simp only [Sys.run, List.cons_append] at h ⊢
    split at h
    · cases h
    · exact ih h

theorem residue_step {cfg : Config} {es : List Sys.Ev} {s s' : Sys} (h : Sys.init.run cfg es = some s) (hc : s.crashed = false) {e : Sys.Ev} (hs : s.step cfg e = some s')
    (hc' : s'.crashed = false) {c : Nat} {k : Conn} (hk : s.conns[c]? = some k) (hq : k.inq = []) (he : ∀ f, e ≠ .conn c (.recv f)) :
    ∃ k', s'.conns[c]? = some k' ∧ Still k k' ∧ ∃ ws, k'.out = k.out ++ ws ∧ ∀ w ∈ ws, Spec.Residue k.hist w := by
  have hsi := (sys_induction (P := fun _ => True) trivial (fun _ _ _ _ _ _ => trivial) es s h hc).1
  have hst := (sys_step hsi.refs hs).2.resolve_left (by rw [hc']; decide)
  obtain ⟨k', hk', hst'⟩ := still_sys hst hk hq he
  obtain ⟨ws, ho, hw⟩ := hst'.out
  refine ⟨k', hk', hst', ws, ho, fun w hm => ?_⟩
  have key : ∀ g, w.frame = some g → g.command = b!"MESSAGE" → Spec.Residue k.hist w := fun g hg hm' =>
    .inr ⟨g, hg, hm', C54_asked_partial cfg es s s' h hc e hs hc' c k k' hk hk' ws ho w hm g hg hm', fun hd => by
      obtain ⟨i, d, h1, h2, _⟩ := C54_queue_partial cfg es s s' h hc e hs hc' c k k' hk hk' ws ho w hm g hg hm' hd
      exact ⟨i, d, h1, h2⟩⟩
  rcases hw w hm with rfl | hu
  · exact .inl rfl
  · have ht : ∃ t, w.tag = some t := by
      rcases hu with ⟨m, g, _, rfl, _⟩ | ⟨i, j, g, t, _, _, rfl⟩
      · exact ⟨_, rfl⟩
      · exact ⟨_, rfl⟩
    obtain ⟨t, ht⟩ := ht
    obtain ⟨ces, hr, henv⟩ := conn_run h hc hk
    have hgm := run_inv (P := fun _ => True) (fun _ _ _ _ _ _ _ _ => trivial) ces k henv trivial hr
    rcases conns_evol hst hk' with ⟨h1, _⟩ | ⟨k0, h0, ⟨ce, _, hcs⟩ | hO⟩
    · rw [hk] at h1; cases h1
    · rw [hk] at h0; injection h0 with h0; subst h0
      obtain ⟨new, hn, hnew⟩ := out_tagged hgm.1 (step_of _ _ _ _ hcs)
      have hwn : w ∈ new := by
        rw [ho] at hn
        rw [← List.append_cancel_left hn]
        exact hm
      obtain ⟨m, n, _, ⟨h1, rfl⟩ | ⟨i, _, h2, rfl⟩⟩ := hnew w hwn t ht
      · exact key _ rfl ((allocFrame_command _ _ _).trans (hgm.2.1.writeCh m h1))
      · refine key _ rfl ((allocFrame_command _ _ _).trans ?_)
        have hall := messages_run h hc
        unfold deref at h2
        rw [List.getD_eq_getElem?_getD] at h2
        cases hx : k.heap[i]? with
        | none => rw [hx] at h2; cases h2
        | some b =>
          rw [hx] at h2
          exact hgm.2.1.heap b (List.mem_of_getElem? hx) m h2
    · rw [hk] at h0; injection h0 with h0; subst h0
      rw [hO.out] at ho
      have := List.append_cancel_left ((List.append_nil _).trans ho)
      rw [← this] at hm; cases hm

/-- **C46** (what holds of it, beside `C46_disconnect_partial`). In every execution of the whole server: when the frames of a client have been handled, its DISCONNECT for one, and the client sends nothing
more, then no further frame of it has an effect (nothing is sent to a destination on its behalf), and nothing is written to it but heart-beats and messages: no RECEIPT, no ERROR; messages
only for subscriptions the client has asked for, and those of queues only for subscriptions it has not given up. Missing: that there are none of these (`C46_false`, `C46_quiet_false`). -/
theorem C46_afterwards_partial (cfg : Config) (es0 es : List Sys.Ev) (s s' : Sys) (h0 : Sys.init.run cfg es0 = some s) (c : Nat) (k : Conn) (hk : s.conns[c]? = some k)
    (hq : k.inq = []) (h : s.run cfg es = some s') (hc : s'.crashed = false) (he : ∀ f, Sys.Ev.conn c (.recv f) ∉ es) :
    ∃ k', s'.conns[c]? = some k' ∧ k'.hist = k.hist ∧ k'.effective = k.effective ∧ (∃ rs, k'.log = k.log ++ rs ∧ ∀ m, Req.enqueue m ∉ rs) ∧
      ∃ ws, k'.out = k.out ++ ws ∧ ∀ w ∈ ws, Spec.Residue k.hist w := by
  suffices hh : ∃ k', s'.conns[c]? = some k' ∧ Still k k' ∧ ∃ ws, k'.out = k.out ++ ws ∧ ∀ w ∈ ws, Spec.Residue k.hist w by
    obtain ⟨k', h1, h2, h3⟩ := hh
    exact ⟨k', h1, h2.hist, h2.effective, h2.log, h3⟩
  induction es generalizing s k es0 with
  | nil =>
    simp only [Sys.run, Option.some.injEq] at h
    subst h
    exact ⟨k, hk, .refl hq, [], (List.append_nil _).symm, by simp⟩
  | cons e es ih =>
    have hcs := not_crashed h hc
    simp only [Sys.run] at h
    split at h
    · cases h
    · rename_i s1 hs1
      have hc1 := not_crashed h hc
      obtain ⟨k1, hk1, hst, ws, ho, hw⟩ := residue_step h0 hcs hs1 hc1 hk hq (fun f hf => he f (by rw [hf]; exact List.mem_cons_self))
      obtain ⟨k', hk', hst', ws', ho', hw'⟩ := ih (es0 ++ [e]) s1 (silent_snoc h0 hs1) k1 hk1 hst.inq h (fun f hf => he f (List.mem_cons_of_mem _ hf))
      refine ⟨k', hk', hst.trans hst', ws ++ ws', by rw [ho', ho, List.append_assoc], fun w hm => ?_⟩
      rcases List.mem_append.1 hm with hm | hm
      · exact hw w hm
      · have := hw' w hm
        rw [hst.hist] at this
        exact this

/-- **C46** for clients that have given up their subscriptions, if they had any, and had none for topics: when their frames have been handled and they send nothing more, nothing but heart-beats
is written to them. Missing: the other clients (`C46_false`, `C46_quiet_false`). -/
theorem C46_unsubscribed_partial (cfg : Config) (es0 es : List Sys.Ev) (s s' : Sys) (h0 : Sys.init.run cfg es0 = some s) (c : Nat) (k : Conn) (hk : s.conns[c]? = some k)
    (hq : k.inq = []) (h : s.run cfg es = some s') (hc : s'.crashed = false) (he : ∀ f, Sys.Ev.conn c (.recv f) ∉ es)
    (hsub : Spec.openSubs k.hist = []) (htop : ∀ p ∈ k.hist.filterMap Spec.opens, Spec.IsQueue p.2) :
    ∃ k', s'.conns[c]? = some k' ∧ ∃ ws, k'.out = k.out ++ ws ∧ ∀ w ∈ ws, w.frame = none := by
  obtain ⟨k', hk', _, _, _, ws, ho, hw⟩ := C46_afterwards_partial cfg es0 es s s' h0 c k hk hq h hc he
  refine ⟨k', hk', ws, ho, fun w hm => ?_⟩
  rcases hw w hm with h1 | ⟨g, _, _, ⟨i, d, _, h2, h3⟩, h4⟩
  · exact h1
  · obtain ⟨i', d', _, h5⟩ := h4 ⟨d, h2, htop _ h3⟩
    rw [hsub] at h5; cases h5

/-- The first of two clients has subscribed to a destination and said DISCONNECT, which has been handled. -/
def disconnectedRun (d : Bytes) : List Sys.Ev :=
  subscribedRun d ++ [.conn 0 (.recv ⟨b!"DISCONNECT", [(b!"receipt", b!"r1")], []⟩), .conn 0 (.frame true true)]

/-- The second sends a message to the destination, which is written to the first; then the network connection of the first ends. -/
def stillWritten (d : Bytes) (w : Conn.Ev) : List Sys.Ev :=
  [.conn 1 (.recv ⟨b!"SEND", [(b!"destination", d)], b!"x"⟩), .conn 1 (.frame true true), .flush 1, .proc, .push, .conn 0 w, .conn 0 .readErr]

/-- **C46** fails also for clients that send nothing after DISCONNECT: messages of subscriptions they have not given up are written to them after the RECEIPT. -/
theorem C46_quiet_false : ∀ d w, (d, w) ∈ [(b!"/queue/a", Conn.Ev.sub true), (b!"/topic/a", Conn.Ev.wr true)] →
    ∃ s, Sys.init.run sampleCfg (disconnectedRun d ++ stillWritten d w) = some s ∧ s.crashed = false ∧ (∀ f, Sys.Ev.conn 0 (.recv f) ∉ stillWritten d w) ∧
      ∃ k, s.conns[0]? = some k ∧ k.hist.map (·.command) = [b!"CONNECT", b!"SUBSCRIBE", b!"DISCONNECT"] ∧
        k.out.map (fun w => w.frame.map (·.command)) = [some b!"CONNECTED", some b!"RECEIPT", some b!"MESSAGE"] := by
  intro d w h
  rcases List.mem_cons.1 h with h | h
  · cases h
    exact ⟨_, rfl, by decide +kernel, fun f hf => by simp [stillWritten] at hf, _, rfl, by decide +kernel, by decide +kernel⟩
  · cases List.mem_singleton.1 h
    exact ⟨_, rfl, by decide +kernel, fun f hf => by simp [stillWritten] at hf, _, rfl, by decide +kernel, by decide +kernel⟩

-- The hypotheses of `C46_afterwards_partial`: the run above, cut after the DISCONNECT has been handled.
example : (Sys.init.run sampleCfg (disconnectedRun b!"/queue/a")).map (fun s => (s.crashed, s.conns[0]?.map (fun k => (k.inq, k.hist.length, k.out.length)))) =
    some (false, some ([], 3, 2)) := by decide +kernel

-- The hypotheses of `C46_unsubscribed_partial`: the client gives up its subscription and says DISCONNECT while a message for it is on its way; the message goes back to the queue.
example : ∃ s k, Sys.init.run sampleCfg (subscribedRun b!"/queue/a" ++ sentTo b!"/queue/a" ++ givenUp ++
      [.conn 0 (.recv ⟨b!"DISCONNECT", [(b!"receipt", b!"r1")], []⟩), .conn 0 (.frame true true)]) = some s ∧ s.crashed = false ∧ s.conns[0]? = some k ∧ k.inq = [] ∧
    Spec.openSubs k.hist = [] ∧ k.hist.filterMap Spec.opens = [(b!"1", b!"/queue/a")] ∧ k.subCh.length = 1 := by
  refine ⟨_, _, rfl, ?_, rfl, ?_, ?_, ?_, ?_⟩ <;> decide +kernel

end Stomp.Server
