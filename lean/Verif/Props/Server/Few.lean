import Verif.Props.Server.Deadlock
import Verif.Props.Server.Queues
import Verif.Proofs.Server.Few
/-!
# Property C47: for whom the processor waits
-/
namespace Stomp.Server
open Stomp

/-- The processor will never have to wait for this connection: the subscriptions it has asked for so far are to queues, and at most 16. -/
def Spec.Modest (k : Conn) : Prop :=
  (∀ p ∈ k.hist.filterMap Spec.opens, Spec.IsQueue p.2) ∧ (k.hist.filterMap Spec.opens).length ≤ 16

/-- **C47** (part). The processor waits only for connections that have subscribed to a topic, or have made more than 16 subscriptions. Missing: `C47_false`. -/
theorem C47_cause_partial (cfg : Config) (es : List Sys.Ev) (s : Sys) (h : Sys.init.run cfg es = some s) (hc : s.crashed = false) (c : Nat) (k : Conn)
    (hk : s.conns[c]? = some k) (hm : Spec.Modest k) : ¬Spec.ProcessorWaitsFor s c := by
  have hi := (sys_induction (P := fun _ => True) trivial (fun _ _ _ _ _ _ => trivial) es s h hc).1
  obtain ⟨cs, hcs⟩ := hi.run c k hk
  have hp : heapView k <+: k.hist.filterMap Spec.opens := heapPre_run hcs
  have hlen : k.heap.length ≤ 16 := by
    have := hp.length_le
    rw [List.length_map] at this
    exact Nat.le_trans this hm.2
  rintro ⟨k', hk', hw⟩
  rw [hk] at hk'; injection hk' with hk'; subst hk'
  rcases hw with ⟨d, i, m, t, ht, _⟩ | ⟨i, t, ht, hl⟩
  · obtain ⟨hq, x, hx, hxd⟩ := (addr_run h hc).t d ⟨c, i⟩ (hi.due d ⟨c, i⟩ m (by rw [ht]; simp))
    obtain ⟨k', hk', hil, hde⟩ := look_some hx
    dsimp only at hk' hil hde
    rw [hk] at hk'; injection hk' with hk'; subst hk'
    have hmem : (x.id, x.dest) ∈ heapView k := by
      refine List.mem_map.2 ⟨x, ?_, rfl⟩
      rw [← hde]; unfold deref
      rw [List.getD_eq_getElem?_getD, List.getElem?_eq_getElem hil]
      exact List.getElem_mem hil
    have := hm.1 _ (hp.subset hmem)
    dsimp only at this
    rw [hxd, ← isQueue_iff, hq] at this
    cases this
  · have hcount : 0 < (todoSubs s.todo).count ⟨c, i⟩ := by rw [ht]; unfold todoSubs; simp
    obtain ⟨x, hx, _⟩ := hi.full ⟨c, i⟩ hcount
    obtain ⟨k', hk', hil, _⟩ := look_some hx
    dsimp only at hk' hil
    rw [hk] at hk'; injection hk' with hk'; subst hk'
    have htok := hi.tok ⟨c, i⟩
    rw [held_of (show s.conns[(⟨c, i⟩ : SubRef).conn]? = some k from hk)] at htok
    have hloc := hi.loc c k hk
    have hct : ∀ j, k.subCh.count j ≤ k.core.tok j := fun j => by unfold Core.tok; show k.subCh.count j ≤ k.subCh.count j + _ + _; omega
    have hno : i ∉ k.subCh := fun hmem => by
      have := List.count_pos_iff.2 hmem
      have := hct i
      dsimp only at htok
      omega
    have hnd : k.subCh.Nodup := List.nodup_iff_count.2 (fun j => Nat.le_trans (hct j) (hloc.tok j))
    have := short_of_missing hnd (fun j hj => hloc.idx j (Nat.lt_of_lt_of_le (List.count_pos_iff.2 hj) (hct j))) (show i < k.core.heap.length from hil) hno
    have hsame : k.core.heap.length = k.heap.length := rfl
    omega

/-- **C47** (part). If all connections are so, the processor never waits: whenever it has something to do, it does it; and no connection waits for it in vain —
what it wants to say, it can say, once the processor has taken one request. Missing: `C47_false`. -/
theorem C47_modest_partial (cfg : Config) (es : List Sys.Ev) (s : Sys) (h : Sys.init.run cfg es = some s) (hc : s.crashed = false)
    (hm : ∀ (c : Nat) (k : Conn), s.conns[c]? = some k → Spec.Modest k) :
    (s.todo ≠ [] → ∃ s', s.step cfg .push = some s') ∧
    (s.todo = [] → s.reqCh ≠ [] → ∃ s', s.step cfg .proc = some s') ∧
    (∀ c, Spec.WaitsForProcessor s c → (∃ s', s.step cfg .push = some s') ∨ ∃ s', s.step cfg .proc = some s') := by
  obtain ⟨h1, h2, _, _⟩ := C47_progress_partial cfg es s h hc
  have h3 : s.todo ≠ [] → ∃ s', s.step cfg .push = some s' := by
    intro ht
    rcases h2 ht with h | ⟨c, hw⟩
    · exact h
    · obtain ⟨k, hk, _⟩ := id hw
      exact absurd hw (C47_cause_partial cfg es s h hc c k hk (hm c k hk))
  refine ⟨h3, h1, ?_⟩
  rintro c ⟨k, r, o, _, _, hl⟩
  by_cases ht : s.todo = []
  · exact Or.inr (h1 ht (by intro he; rw [he] at hl; simp at hl))
  · exact Or.inl (h3 ht)

/-- The bound is the best possible: with 17 subscriptions, all to queues, the processor waits. Nobody takes anything out of the channel of connection 0; its 17 subscriptions are to 17
queues, and connection 1 sends a message to each. -/
def manySub (n : Nat) : Frame := ⟨b!"SUBSCRIBE", [(b!"id", [UInt8.ofNat (65 + n)]), (b!"destination", b!"/queue/" ++ [UInt8.ofNat (65 + n)])], []⟩

/-- A message for the `n`th of the queues. -/
def manySend (n : Nat) : Frame := ⟨b!"SEND", [(b!"destination", b!"/queue/" ++ [UInt8.ofNat (65 + n)])], []⟩

/-- The first connection subscribes to `n` queues, the second sends a message to each; the processor hands over what it can. -/
def manyRun (n : Nat) : List Sys.Ev :=
  connectRun 0 ++ connectRun 1 ++ ((List.range n).map (fun i => frameRun 0 (manySub i))).flatten ++
  ((List.range (n - 1)).map (fun i => frameRun 1 (manySend i) ++ [.push])).flatten ++ frameRun 1 (manySend (n - 1))

/-- What the processor waits for, as something that can be computed. -/
def Spec.waits (s : Sys) (c : Nat) : Bool :=
  match s.todo, s.conns[c]? with
  | .queue r :: _, some k => decide (r.conn = c) && decide (16 ≤ k.subCh.length)
  | _, _ => false

theorem waits_of {s : Sys} {c : Nat} (h : Spec.waits s c = true) : Spec.ProcessorWaitsFor s c := by
  unfold Spec.waits at h
  split at h
  · rename_i r t k ht hk
    simp only [Bool.and_eq_true, decide_eq_true_eq] at h
    obtain ⟨rc, ri⟩ := r
    obtain ⟨h1, h2⟩ := h
    dsimp only at h1; subst h1
    exact ⟨k, hk, Or.inr ⟨ri, t, ht, h2⟩⟩
  · cases h

theorem many17_some : (Sys.init.run sampleCfg (manyRun 17)).isSome = true := by decide +kernel

/-- **C47**: 17 subscriptions to queues are too many. -/
theorem C47_seventeen_false : ∃ es s k, Sys.init.run sampleCfg es = some s ∧ s.crashed = false ∧ s.conns[0]? = some k ∧
    (∀ p ∈ k.hist.filterMap Spec.opens, Spec.IsQueue p.2) ∧ (k.hist.filterMap Spec.opens).length = 17 ∧ Spec.ProcessorWaitsFor s 0 := by
  have hw : (((Sys.init.run sampleCfg (manyRun 17)).get many17_some).conns[0]?.map (fun k =>
      (decide (∀ p ∈ k.hist.filterMap Spec.opens, b!"/queue" <+: p.2), (k.hist.filterMap Spec.opens).length))) = some (true, 17) := by decide +kernel
  cases hk : ((Sys.init.run sampleCfg (manyRun 17)).get many17_some).conns[0]? with
  | none => rw [hk] at hw; cases hw
  | some k =>
    rw [hk] at hw
    simp only [Option.map_some, Option.some.injEq, Prod.mk.injEq] at hw
    exact ⟨manyRun 17, _, k, (Option.some_get _).symm, by decide +kernel, hk, fun p hp => (of_decide_eq_true (p := ∀ p ∈ k.hist.filterMap Spec.opens, b!"/queue" <+: p.2) hw.1) p hp, hw.2, waits_of (by decide +kernel)⟩

/-- The same client goes on sending: 128 requests are in the request channel, and it wants to send one more. -/
def manyJamRun : List Sys.Ev :=
  connectRun 0 ++ ((List.range 17).map (fun i => frameRun 0 (manySub i))).flatten ++
  ((List.range 16).map (fun i => frameRun 0 (manySend i) ++ [.push])).flatten ++ frameRun 0 (manySend 16) ++
  (List.replicate 128 [Sys.Ev.conn 0 (.recv (manySend 0)), .conn 0 (.frame true true), .flush 0]).flatten ++
  [.conn 0 (.recv (manySend 0)), .conn 0 (.frame true true)]

theorem manyJam_some : (Sys.init.run sampleCfg manyJamRun).isSome = true := by decide +kernel

/-- The state after it. -/
def manyJamSys : Sys := (Sys.init.run sampleCfg manyJamRun).get manyJam_some

/-- **C47** fails (3): topics are not needed. One client with 17 subscriptions to queues, which sends messages to them, stops the server for ever. -/
theorem C47_queues_false : ∃ es s, Sys.init.run sampleCfg es = some s ∧ s.crashed = false ∧
    (∀ k ∈ s.conns, ∀ p ∈ k.hist.filterMap Spec.opens, Spec.IsQueue p.2) ∧
    ∀ es' s', s.run sampleCfg es' = some s' → Spec.ProcessorWaitsFor s' 0 := by
  have hq : ∀ k ∈ manyJamSys.conns, ∀ p ∈ k.hist.filterMap Spec.opens, b!"/queue" <+: p.2 := by decide +kernel
  refine ⟨manyJamRun, manyJamSys, (Option.some_get _).symm, by decide +kernel, hq, fun es' s' h => ?_⟩
  cases hk : manyJamSys.conns[0]? with
  | none => exact absurd hk (by decide +kernel)
  | some k0 =>
    have fact : manyJamSys.conns[0]?.map (fun k => (decide (16 ≤ k.subCh.length), (match k.outbox with | .req _ :: _ => true | _ => false))) = some (true, true) := by decide +kernel
    rw [hk] at fact
    simp only [Option.map_some, Option.some.injEq, Prod.mk.injEq] at fact
    obtain ⟨f1, f4⟩ := fact
    have head : ∃ i t, manyJamSys.todo = .queue ⟨0, i⟩ :: t := by
      have : (match manyJamSys.todo with | .queue r :: _ => decide (r = ⟨0, 16⟩) | _ => false) = true := by decide +kernel
      split at this
      · rename_i r t he; exact ⟨16, t, by rw [he, of_decide_eq_true this]⟩
      · cases this
    obtain ⟨i, t, hd⟩ := head
    have hout : ∃ r o, k0.outbox = .req r :: o := by
      split at f4
      · rename_i r o he; exact ⟨r, o, he⟩
      · cases f4
    obtain ⟨r, o, ho⟩ := hout
    have h0 : Jammed 0 k0 manyJamSys := ⟨Or.inr ⟨i, t, hd, of_decide_eq_true f1⟩, Or.inl ⟨r, o, ho, by decide +kernel⟩⟩
    exact ((jam_run h0 es' _ s' ⟨⟨k0, hk, rfl, rfl, rfl, rfl, rfl⟩, rfl, List.prefix_refl _⟩ h).waits h0).1

theorem many16_some : (Sys.init.run sampleCfg (manyRun 16)).isSome = true := by decide +kernel

-- C47_cause_partial, C47_modest_partial: 16 subscriptions, a message for each; 15 in the channel and one in the processor's hand.
example : ∃ es s, Sys.init.run sampleCfg es = some s ∧ s.crashed = false ∧ (∀ (c : Nat) (k : Conn), s.conns[c]? = some k → Spec.Modest k) ∧
    s.todo.length = 1 ∧ s.conns.map (·.subCh.length) = [15, 0] := by
  refine ⟨manyRun 16, (Sys.init.run sampleCfg (manyRun 16)).get many16_some, (Option.some_get _).symm, by decide +kernel, fun c k hk => ?_, by decide +kernel, by decide +kernel⟩
  have : ∀ k ∈ ((Sys.init.run sampleCfg (manyRun 16)).get many16_some).conns,
      (∀ p ∈ k.hist.filterMap Spec.opens, b!"/queue" <+: p.2) ∧ (k.hist.filterMap Spec.opens).length ≤ 16 := by decide +kernel
  exact this k (List.mem_of_getElem? hk)

end Stomp.Server
