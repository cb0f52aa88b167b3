import Verif.Proofs.Server.Received
import Verif.Props.Server.Conservation
import Verif.Props.Codec
/-! # Property C52: the server's side of the wire -/
namespace Stomp.Server
open Stomp
open Stomp.Spec (firstValue)

/-- **C52.** Every connection processes exactly the frames it receives, in the order it receives them: none is skipped, repeated
or processed before an earlier one. -/
theorem C52_in_order (cfg : Config) (es : List Sys.Ev) (s : Sys) (h : Sys.init.run cfg es = some s) (hc : s.crashed = false) (c : Nat) (k : Conn)
    (hk : s.conns[c]? = some k) : ∃ rest, Spec.receivedBy c es = k.hist ++ rest ∧ rest.length ≤ 16 := by
  obtain ⟨ces, hr, _⟩ := conn_run h hc hk
  refine ⟨k.inq, (received_run h hc hk).symm, ?_⟩
  refine run_induction (P := fun c => Gate cfg c ∧ c.inq.length ≤ 16) (Q := fun _ => True) ?_ ces _ _ (fun _ _ => trivial)
    ⟨gate_init cfg c, by simp [Conn.init]⟩ hr |>.2
  intro c e c' _ ⟨hg, hl⟩ hs
  refine ⟨gate_step cfg c e c' hg hs, ?_⟩
  cases hs with
  | recv f hd hl' => simp; omega
  | frame ok1 ok2 f q c1 _ f' r ha hq hsf hfin =>
    rw [hq] at hl
    rw [List.length_cons] at hl
    rcases frame_cases hg hsf hfin with ⟨_, v, cx, cy, _, ⟨_, rfl⟩ | ⟨_, rfl⟩⟩ | ⟨_, _, e, v, ⟨_, rfl⟩ | ⟨_, rfl⟩⟩ | ⟨_, hh', hf⟩
    · show q.length ≤ 16; omega
    · show q.length ≤ 16; omega
    · show q.length ≤ 16; omega
    · show q.length ≤ 16; omega
    · have h2 := hh'.keeps.inq
      cases hf <;> (rw [h2]; show q.length ≤ 16; omega)
  | _ => exact hl

/-- The answers a connection writes are well-formed. -/
theorem untagged_wf {cfg : Config} {me : Nat} {es : List Conn.Ev} {c : Conn} (h : (Conn.init me).run cfg es = some c) (he : ∀ e ∈ es, EnvOk e) :
    ∀ w ∈ c.out, ∀ g, w.frame = some g → g.command = b!"MESSAGE" ∨ Stomp.Spec.WellFormed g := by
  refine (run_inv (P := fun c => ∀ w ∈ c.out, ∀ g, w.frame = some g → g.command = b!"MESSAGE" ∨ Stomp.Spec.WellFormed g)
    (fun c e c' hg hm _ hp hs => ?_) es c he (by simp [Conn.init]) h).2.2
  rcases out_step_wf hg hm hs with ⟨h1, _⟩ | ⟨_, _, _, new, h1, h2⟩ | ⟨_, _, h1, _⟩ | ⟨_, _, m, a, hmc, _, h1⟩
  · rw [h1]; exact hp
  · intro w hw g hwg
    rw [h1] at hw
    rcases List.mem_append.1 hw with hw | hw
    · exact hp w hw g hwg
    · obtain ⟨_, g', h3, _, h4⟩ := h2 w hw
      rw [hwg] at h3; injection h3 with h3; subst h3
      exact Or.inr h4
  · intro w hw g hwg
    rw [h1] at hw
    rcases List.mem_append.1 hw with hw | hw
    · exact hp w hw g hwg
    · rw [List.mem_singleton] at hw; subst hw; cases hwg
  · intro w hw g hwg
    rw [h1] at hw
    rcases List.mem_append.1 hw with hw | hw
    · exact hp w hw g hwg
    · rw [List.mem_singleton] at hw; subst hw
      injection hwg with hwg; subst hwg
      left
      show (allocFrame _ _ _).command = _
      rw [allocFrame_command]; exact hmc

/-- The delivery of a well-formed SEND frame is well-formed. -/
theorem delivers_wf {f q g : Frame} (h : Spec.Delivers f q g) (hf : Stomp.Spec.WellFormed f) : Stomp.Spec.WellFormed g := by
  obtain ⟨_, hn, hb⟩ := hf
  refine ⟨by rw [h.command]; decide, ?_, ?_⟩
  · intro e he hemp
    have : e ∈ Spec.application g.header := by
      unfold Spec.application
      refine List.mem_filter.2 ⟨he, ?_⟩
      rw [hemp]; decide
    rw [h.headers] at this
    exact hn e (List.mem_filter.1 this).1 hemp
  · unfold Stomp.Spec.BodyOk at hb ⊢
    have hcl : ∀ hd : Header, firstValue (Spec.application hd) b!"content-length" = firstValue hd b!"content-length" := by
      intro hd
      exact firstValue_filter (fun k => decide (k ∉ Spec.own ∧ k ≠ b!"receipt" ∧ k ≠ b!"transaction")) _ (by decide) hd
    rw [← hcl, h.headers, hcl, h.body]
    exact hb

/-- Everything a connection writes is well-formed, if everything received is. -/
theorem out_wf {cfg : Config} {es : List Sys.Ev} {s : Sys} (h : Sys.init.run cfg es = some s) (hc : s.crashed = false)
    (hin : ∀ c, c < s.conns.length → ∀ f ∈ Spec.receivedBy c es, Stomp.Spec.WellFormed f) {c : Nat} {k : Conn} (hk : s.conns[c]? = some k) :
    ∀ g, some g ∈ k.out.map (·.frame) → Stomp.Spec.WellFormed g := by
  obtain ⟨ces, hr, henv⟩ := conn_run h hc hk
  intro g hg
  obtain ⟨w, hw, hwg⟩ := List.mem_map.1 hg
  rcases untagged_wf hr henv w hw g hwg with hm | hwf
  · obtain ⟨p, f, q, hp, hf, _, _, _, hd⟩ := C44_delivered_partial cfg es s h hc c k hk w hw g hwg hm
    obtain ⟨j, hj⟩ := List.mem_iff_getElem?.1 hp
    have hrec : f ∈ Spec.receivedBy j es := by
      rw [← received_run h hc hj]
      exact List.mem_append.2 (Or.inl hf)
    exact delivers_wf hd (hin j (List.getElem?_eq_some_iff.1 hj).1 f hrec)
  · exact hwf

/-- **C52.** In every execution, whatever the clients send, every frame the server has written to a client is well-formed, so a client that
reads the stream gets exactly the frames and heart-beats the server wrote, in order, and then the end of the stream: nothing one client
sends can break the stream of another. (`readFrame` results are what a connection can receive, C06.) -/
theorem C52_readable (cfg : Config) (es : List Sys.Ev) (s : Sys) (h : Sys.init.run cfg es = some s) (hc : s.crashed = false)
    (hin : ∀ c, ∀ f ∈ Spec.receivedBy c es, ∃ inp r, readFrame inp = .frame f r) (c : Nat) (k : Conn) (hk : s.conns[c]? = some k) :
    readAll (writeAll (k.out.map (·.frame))) = (k.out.map (·.frame), .eof) := by
  apply C02_stream
  refine out_wf h hc (fun j _ f hf => ?_) hk
  obtain ⟨inp, r, hi⟩ := hin j f hf
  exact (C06_sound inp f r hi).1

-- Two clients; a message with odd header names and values and a body of its own length, and what the second one reads.
def wireRun : List Sys.Ev :=
  [.accept, .accept,
   .conn 1 (.recv sampleConnect), .conn 1 (.frame true true), .flush 1, .proc,
   .conn 1 (.recv ⟨b!"SUBSCRIBE", [(b!"id", b!"7\n"), (b!"destination", b!"/queue/a:b")], []⟩), .conn 1 (.frame true true), .flush 1, .proc,
   .conn 0 (.recv sampleConnect), .conn 0 (.frame true true), .flush 0, .proc,
   .conn 0 (.recv ⟨b!"SEND", [(b!"destination", b!"/queue/a:b"), (b!"\\x:", b!"\n\r"), (b!"content-length", b!"02"), (b!"receipt", b!"r")], [0, 10]⟩),
   .conn 0 (.frame true true), .flush 0, .proc, .push, .conn 1 (.sub true)]

example : (Sys.init.run sampleCfg wireRun).map (fun s => (s.crashed, s.conns[1]?.map (fun k => k.out.map (·.frame)))) =
    some (false, some
      [some ⟨b!"CONNECTED", [(b!"version", b!"1.1"), (b!"server", b!"stompd/x.y.z"), (b!"heart-beat", b!"0,0")], []⟩,
       some ⟨b!"MESSAGE", [(b!"destination", b!"/queue/a:b"), (b!"\\x:", b!"\n\r"), (b!"content-length", b!"02"), (b!"subscription", b!"7\n"), (b!"message-id", b!"1"), (b!"id", b!"1")], [0, 10]⟩]) := by
  decide +kernel

example : ∀ c, ∀ f ∈ Spec.receivedBy c wireRun, ∃ inp r, readFrame inp = .frame f r := by
  intro c f hf
  refine ⟨writeFrame (some f), [], ?_⟩
  have : f ∈ Spec.receivedBy 0 wireRun ∨ f ∈ Spec.receivedBy 1 wireRun := by
    unfold Spec.receivedBy wireRun at hf ⊢
    by_cases h0 : 0 = c
    · subst h0; exact Or.inl hf
    · by_cases h1 : 1 = c
      · subst h1; exact Or.inr hf
      · simp [h0, h1] at hf
  revert f
  have key : ∀ f ∈ Spec.receivedBy 0 wireRun ++ Spec.receivedBy 1 wireRun, readFrame (writeFrame (some f)) = .frame f [] := by decide +kernel
  intro f _ hf
  exact key f (by rcases hf with h | h <;> simp [h])

end Stomp.Server
