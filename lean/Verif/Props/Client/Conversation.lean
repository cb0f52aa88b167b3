import Verif.Proofs.Client.Conversation
import Verif.Proofs.Client.Reads
import Verif.Spec.Library
import Verif.Props.Client.Connect
import Verif.Props.Client.Wire
import Verif.Props.Client.Closed
/-! # C93: what the client writes is a conversation the specifications allow -/
namespace Stomp.Client
open Stomp

theorem val_eq (f : Frame) (k : Bytes) : Spec.val f k = f.header.contains k := (contains_eq_firstValue _ _).symm

theorem applySendOpts_destination {os : List SendOpt} {last last' : Nat} {f f' : Frame} {d : Bytes}
    (h : applySendOpts last f os = some (last', f')) (hd : f.header.contains Hdr.destination = some d) :
    f'.header.contains Hdr.destination = some d := by
  induction os generalizing last f with
  | nil => cases h; exact hd
  | cons o os ih =>
    unfold applySendOpts at h
    split at h
    · cases h
    · rename_i l1 f1 h1
      refine ih h ?_
      cases o with
      | nilOpt => cases h1; exact hd
      | fail => cases h1
      | receipt =>
        simp only [applySendOpt] at h1
        split at h1 <;> cases h1
        show (f.header.set Hdr.receipt _).contains Hdr.destination = _
        rw [contains_eq, firstValue_set, if_neg (by decide), ← contains_eq]; exact hd
      | noContentLength =>
        simp only [applySendOpt] at h1
        split at h1 <;> cases h1
        show (f.header.del Hdr.contentLength).contains Hdr.destination = _
        rw [contains_eq_firstValue, firstValue_del, if_neg (by decide), ← contains_eq_firstValue]; exact hd
      | header k v =>
        simp only [applySendOpt] at h1
        split at h1 <;> cases h1
        show (f.header.add k v).contains Hdr.destination = _
        rw [contains_eq, firstValue_add, ← contains_eq, hd]; rfl

theorem send_destination {last last' : Nat} {d c b : Bytes} {os : List SendOpt} {f : Frame}
    (h : createSendFrame last d c b os = some (last', f)) : f.header.contains Hdr.destination = some d := by
  unfold createSendFrame at h
  refine applySendOpts_destination h ?_
  split
  · show (Header.set (Header.set _ _ _) _ _).contains _ = _
    rw [contains_eq, firstValue_set, if_neg (by decide), firstValue_set, if_pos rfl]
  · show (Header.set _ _ _).contains _ = _
    rw [contains_eq, firstValue_set, if_pos rfl]

theorem applySubOpts_keep {os : List SubOpt} {f f' : Frame} {k v : Bytes} (hk : k ≠ Hdr.id) (h : applySubOpts f os = some f')
    (hv : f.header.contains k = some v) : f'.header.contains k = some v := by
  induction os generalizing f with
  | nil => cases h; exact hv
  | cons o os ih =>
    unfold applySubOpts at h
    split at h
    · cases h
    · rename_i f1 h1
      refine ih h ?_
      cases o with
      | nilOpt => cases h1; exact hv
      | fail => cases h1
      | id i =>
        simp only [applySubOpt] at h1
        split at h1 <;> cases h1
        show (f.header.set Hdr.id _).contains k = _
        rw [contains_eq, firstValue_set, if_neg (fun e => hk e.symm), ← contains_eq]; exact hv
      | header k' v' =>
        simp only [applySubOpt] at h1
        split at h1 <;> cases h1
        show (f.header.add k' v').contains k = _
        rw [contains_eq, firstValue_add, ← contains_eq, hv]; rfl

theorem subscribe_shape {last last' : Nat} {d : Bytes} {a : AckMode} {os : List SubOpt} {f : Frame} {id : Bytes} {rt : Bool}
    (h : createSubscribeFrame last d a os = some (last', f, id, rt)) : f.header.contains Hdr.destination = some d ∧
    f.header.contains Hdr.ack = some a.str ∧ f.header.contains Hdr.id = some id := by
  unfold createSubscribeFrame at h
  dsimp only at h
  split at h
  · cases h
  · rename_i g hg
    have h1 : g.header.contains Hdr.destination = some d := applySubOpts_keep (by decide) hg (by rfl)
    have h2 : g.header.contains Hdr.ack = some a.str := applySubOpts_keep (by decide) hg (by
      show (Header.add _ _ _).contains _ = _
      rw [contains_eq, firstValue_add, ← contains_eq]; rfl)
    have set : ∀ (r k v : Bytes), k ≠ Hdr.id → g.header.contains k = some v → (g.header.set Hdr.id r).contains k = some v := by
      intro r k v hk hv
      rw [contains_eq, firstValue_set, if_neg (fun e => hk e.symm), ← contains_eq]; exact hv
    have add : ∀ (r k v : Bytes), g.header.contains k = some v → (g.header.add Hdr.id r).contains k = some v := by
      intro r k v hv
      rw [contains_eq, firstValue_add, ← contains_eq, hv]; rfl
    cases hr : g.header.contains Hdr.replyTo with
    | some r =>
      rw [hr] at h
      dsimp only at h
      have h3 : (g.header.set Hdr.id r).contains Hdr.id = some r := by
        rw [contains_eq, firstValue_set, if_pos rfl]
      rw [h3] at h
      cases h
      exact ⟨set _ _ _ (by decide) h1, set _ _ _ (by decide) h2, h3⟩
    | none =>
      rw [hr] at h
      dsimp only at h
      cases hid : g.header.contains Hdr.id with
      | some i =>
        rw [hid] at h
        cases h
        exact ⟨h1, h2, hid⟩
      | none =>
        rw [hid] at h
        cases h
        refine ⟨add _ _ _ h1, add _ _ _ h2, ?_⟩
        show (g.header.add Hdr.id (allocateId last).2).contains Hdr.id = _
        rw [contains_eq, firstValue_add, ← contains_eq, hid]; simp

theorem ack_str (a : AckMode) : a.str ∈ [b!"auto", b!"client", b!"client-individual"] := by cases a <;> decide

/-- What `Ack` and `Nack` make. -/
theorem ack_asks {v : Bytes} {m : MsgInfo} {a : Bool} {f : Frame} (hv : v ∈ [b!"1.0", b!"1.1", b!"1.2"])
    (h : createAckNackFrame v m a = .ok (some f)) (l : List Frame) (f' : Frame) (hc : f'.command = f.command)
    (hh : ∀ k w, k ≠ Hdr.transaction → f.header.contains k = some w → f'.header.contains k = some w) : Spec.Asks v l f' := by
  unfold createAckNackFrame at h
  split at h
  · cases h
  · rename_i hn
    split at h
    · rename_i hd sub _ _ _
      split at h
      · split at h <;> cases h
      · dsimp only at h
        have hcmd : ∀ hdr : Header, f = { Frame.new (if a then Cmd.ack else Cmd.nack) [] with header := hdr } → f'.command = b!"ACK" ∨ f'.command = b!"NACK" := by
          intro hdr e
          rw [hc, e]
          cases a
          · exact .inr rfl
          · exact .inl rfl
        split at h
        · rename_i hv2
          split at h
          · rename_i mid _
            injection h with h; injection h with h
            have e1 : f.header.contains Hdr.messageId = some mid := by subst h; rfl
            have e2 : f.header.contains Hdr.subscription = some sub.id := by subst h; rfl
            have g1 : (Spec.val f' b!"message-id").isSome = true := by
              rw [val_eq, show b!"message-id" = Hdr.messageId from rfl, hh _ _ (by decide) e1]; rfl
            have g2 : (Spec.val f' b!"subscription").isSome = true := by
              rw [val_eq, show b!"subscription" = Hdr.subscription from rfl, hh _ _ (by decide) e2]; rfl
            rcases hv2 with hv2 | hv2
            · refine .ack10 hv2 ?_ g1
              cases a with
              | true => rw [hc, ← h]; rfl
              | false => rw [hv2] at hn; exact absurd (by decide) hn
            · exact .ack11 hv2 (hcmd _ h.symm) g1 g2
          · cases h
        · rename_i hv2
          split at h
          · rename_i hv3
            split at h
            · rename_i i _
              injection h with h; injection h with h
              have e1 : f.header.contains Hdr.id = some i := by subst h; rfl
              refine .ack12 hv3 (hcmd _ h.symm) ?_
              rw [val_eq, show b!"id" = Hdr.id from rfl, hh _ _ (by decide) e1]; rfl
            · cases h
          · rename_i hv3
            exfalso
            simp only [List.mem_cons, List.not_mem_nil, or_false] at hv
            rcases hv with hv | hv | hv
            · exact hv2 (.inl hv)
            · exact hv2 (.inr hv)
            · exact hv3 hv
    · cases h

theorem made_asks {v : Bytes} {f : Frame} (hv : v ∈ [b!"1.0", b!"1.1", b!"1.2"]) (h : Spec.Made v f) (l : List Frame) : Spec.Asks v l f := by
  have ending : ∀ (cmd : Bytes) (r : Bool) (last : Nat) (id : Bytes), (cmd = b!"BEGIN" ∨ cmd = b!"COMMIT" ∨ cmd = b!"ABORT") →
      f = (if r then (let (l, i) := allocateId last; (l, { Frame.new cmd [(Hdr.transaction, id)] with header := (Frame.new cmd [(Hdr.transaction, id)]).header.set Hdr.receipt i }))
        else (last, Frame.new cmd [(Hdr.transaction, id)])).2 → Spec.Asks v l f := by
    intro cmd r last id hc hf
    refine .transaction ?_ ?_
    · rw [hf]; cases r <;> exact hc
    · rw [val_eq, show b!"transaction" = Hdr.transaction from rfl, hf]
      cases r with
      | true => show ((Header.set _ _ _).contains _).isSome = _; rw [contains_eq, firstValue_set, if_neg (by decide)]; rfl
      | false => rfl
  have tagged : ∀ (g : Frame) (id k w : Bytes), k ≠ Hdr.transaction → g.header.contains k = some w → (g.header.set Hdr.transaction id).contains k = some w := by
    intro g id k w hk hw
    rw [contains_eq, firstValue_set, if_neg (fun e => hk e.symm), ← contains_eq]; exact hw
  rcases h with ⟨m, a, h⟩ | ⟨last, h⟩ | ⟨last, tx, call, ok, h⟩
  · exact ack_asks hv h l f rfl (fun _ _ _ h => h)
  · exact ending Cmd.begin_ false last _ (.inl rfl) h
  · unfold txStep at h
    cases call with
    | abort r =>
      dsimp only at h
      split at h
      · cases h
      · refine ending Cmd.abort r last tx.id (.inr (.inr rfl)) ?_
        split at h <;> (injection h with h; exact h.symm)
    | commit r =>
      dsimp only at h
      split at h
      · cases h
      · refine ending Cmd.commit r last tx.id (.inr (.inl rfl)) ?_
        split at h <;> (injection h with h; exact h.symm)
    | send d c b o =>
      dsimp only at h
      split at h
      · cases h
      · split at h
        · cases h
        · rename_i g hg
          injection h with h
          subst h
          refine .send (show g.command = _ from createSendFrame_command hg) ?_
          rw [val_eq, show b!"destination" = Hdr.destination from rfl]
          show ((Header.set _ _ _).contains _).isSome = _
          rw [tagged _ _ _ _ (by decide) (send_destination hg)]; rfl
    | ack m =>
      dsimp only at h
      split at h
      · cases h
      · split at h
        · cases h
        · cases h
        · rename_i g hg
          injection h with h
          subst h
          exact ack_asks hv hg l _ rfl (fun k w hk hw => tagged _ _ _ _ hk hw)
    | nack m =>
      dsimp only at h
      split at h
      · cases h
      · split at h
        · cases h
        · cases h
        · rename_i g hg
          injection h with h
          subst h
          exact ack_asks hv hg l _ rfl (fun k w hk hw => tagged _ _ _ _ hk hw)

theorem framesOf_stream (s : Sys) : Spec.framesOf (Spec.stream s) = sentIn s.trace := by
  unfold Spec.framesOf Spec.stream sentIn
  rw [List.filterMap_filterMap]
  congr 1
  funext o
  cases o <;> rfl

theorem unmistaken_apart {cfg : Cfg} {n : Nat} {es : List Ev} {s : Sys} (h : (Sys.init n).run cfg es = some s) (hu : Spec.Unmistaken s) : Apart s := by
  intro m t r hm hc ha hd
  have hq := (read_run h).queue
  have h1 : some m ∈ tookIn s.trace := List.mem_filterMap.2 ⟨_, hm, rfl⟩
  have h2 : some m ∈ readIn s.trace := by rw [hq]; exact List.mem_append_left _ h1
  obtain ⟨o, h3, h4⟩ := List.mem_filterMap.1 h2
  have h5 : .read (some m) ∈ s.trace := by
    cases o <;> simp only [Option.some.injEq, reduceCtorEq] at h4
    subst h4; exact h3
  have h6 : r ∈ Spec.handedOver s := by
    have : r ∈ handedIn s.trace := by rw [handedIn_acc]; exact List.mem_map.2 ⟨_, ha, rfl⟩
    exact this
  have := hu m h5 hc r h6 hd
  rw [val_eq, val_eq] at this
  exact this

/-- The opening frame of a client. -/
theorem connect_opens {opts : List ConnOpt} {remote : Option Bytes} {wok : Bool} {inp : Bytes} {g : Frame}
    (h : (connect opts remote wok inp).1 = some g) : Spec.Opens g := by
  obtain ⟨host, _, _, _, h4, h5, _, h7⟩ := C14_frame opts remote wok inp g h
  refine ⟨?_, ⟨host, ?_, h4⟩, ?_⟩
  · rw [h5]; split
    · exact .inr rfl
    · exact .inl rfl
  · unfold Spec.val; rw [h7]; rfl
  · unfold Spec.val Stomp.Spec.firstValue
    rw [Option.isSome_map, List.find?_isSome]
    have hmem : ∃ w, (b!"accept-version", w) ∈ g.header :=
      ⟨_, by rw [h7]; exact List.mem_append_left _ (List.mem_append_right _ (List.mem_singleton.2 rfl))⟩
    obtain ⟨w, hw⟩ := hmem
    exact ⟨_, hw, decide_eq_true rfl⟩

namespace ExTalk

/-- What a server answers to the opening frame. -/
def hello : Bytes := b!"CONNECTED\nversion:1.2\n\n" ++ [0]

def opening : Frame := ((connect [] none true hello).1).getD (Frame.new [] [])

theorem opening_some : (connect [] none true hello).1 = some opening := by rfl

theorem connects : ∃ ci, connect [] none true hello = (some opening, .ok ci) ∧ ci.version = b!"1.2" := by
  have h : (match connect [] none true hello with
    | (some g, .ok ci) => decide (g = opening ∧ ci.version = b!"1.2")
    | _ => false) = true := by decide +kernel
  split at h
  · rename_i g ci heq
    obtain ⟨h1, h2⟩ := of_decide_eq_true h
    exact ⟨ci, by rw [heq, h1], h2⟩
  · cases h

def message (sub : Bytes) : Frame := Frame.new Cmd.message [(Hdr.subscription, sub), (Hdr.messageId, b!"m"), (Hdr.ack, b!"a"), (Hdr.destination, b!"/q")]

def ackOf : Frame := Frame.new Cmd.ack [(Hdr.id, b!"a")]

/-- Subscribe, a message and its ACK, a transaction with a SEND, unsubscribe, disconnect. -/
def talk : List Ev :=
  [.call (.subscribe b!"/q" .client []), .thread 0, .thread 0, .loopWrite true [], .net (some (message b!"1")), .loopRead [], .deliver true, .sub 0,
   .call (.frame ackOf), .thread 1, .thread 1, .loopWrite true [],
   .tick, .call (.frame (txBegin 1).2.2), .thread 2, .thread 2, .loopWrite true [], .loopBeat true [],
   .call (.unsubscribe 0 []), .thread 3, .thread 3, .thread 3, .loopWrite true [],
   .call .disconnect, .thread 4, .thread 4, .loopWrite true [], .net (some (Ex.receiptFrame b!"3")), .loopRead [], .deliver true]

def talkEnd : Sys := ((Sys.init 0).run Ex.cfg talk).getD (Sys.init 0)

/-- A subscription with the name that the receipt of the DISCONNECT will have. -/
def mistaken : List Ev :=
  [.call (.subscribe b!"/q" .auto [.id b!"1"]), .thread 0, .thread 0, .loopWrite true [],
   .call .disconnect, .thread 1, .thread 1, .loopWrite true [], .net (some (message b!"1")), .loopRead [], .deliver true,
   .call (.send b!"/q" [] b!"x" []), .thread 2, .thread 2, .loopWrite true []]

def mistakenEnd : Sys := ((Sys.init 0).run Ex.cfg mistaken).getD (Sys.init 0)

theorem talk_run : (Sys.init 0).run Ex.cfg talk = some talkEnd := by decide +kernel
theorem mistaken_run : (Sys.init 0).run Ex.cfg mistaken = some mistakenEnd := by decide +kernel

theorem mistaken_stream : Spec.stream mistakenEnd =
    [some (Frame.new Cmd.subscribe [(Hdr.destination, b!"/q"), (Hdr.ack, b!"auto"), (Hdr.id, b!"1")])] ++
    some (Frame.new Cmd.disconnect [(Hdr.receipt, b!"1")]) ::
    [some { Frame.new Cmd.send [(Hdr.contentLength, b!"1"), (Hdr.destination, b!"/q")] with body := b!"x" }] := by decide +kernel

end ExTalk

/-- **C93** (false as worded, see `C93_false`): what the client writes, from the opening frame on, is a conversation that the specifications allow.
Every frame is one a client may send in a session of the negotiated version, with the headers it must have; an UNSUBSCRIBE comes after a SUBSCRIBE with
its id; no frame follows a DISCONNECT. Missing: executions in which a MESSAGE comes for a "subscription" with the name of the receipt that `Disconnect`
asks for. The frames given to `sendFrame` ready-made are those of `Ack`, `Nack`, `Begin` and the methods of transactions. -/
theorem C93_conversation_partial {opts : List ConnOpt} {remote : Option Bytes} {inp : Bytes} {g : Frame} {ci : ConnInfo}
    (hc : connect opts remote true inp = (some g, .ok ci)) {cfg : Cfg} {n : Nat} {es : List Ev} {s : Sys} (h : (Sys.init n).run cfg es = some s)
    (hm : ∀ f, .call (.frame f) ∈ es → Spec.Made ci.version f) (hu : Spec.Unmistaken s) : Spec.Conversation ci.version (some g :: Spec.stream s) := by
  obtain ⟨_, _, _, _, hv, _⟩ := C12_version opts remote true inp ci (by rw [hc])
  refine ⟨g, _, rfl, connect_opens (by rw [hc]), ?_⟩
  intro a f b hs
  have hw : sentIn s.trace = Spec.framesOf a ++ f :: Spec.framesOf b := by
    rw [← framesOf_stream, hs]; simp [Spec.framesOf]
  obtain ⟨t, th, r, h1, h2, h3, h4, h5⟩ := written_call h (g := f) (by rw [hs]; simp)
  have plain : r.frame.command ≠ Cmd.unsubscribe → f = r.frame := by
    intro hne
    unfold Spec.wire at h2
    split at h2
    · cases h2
    · injection h2 with h2; exact h2.symm
  cases hcall : th.call with
  | send d c body o =>
    rw [hcall] at h4
    obtain ⟨_, _, h4⟩ := h4
    have hcm := createSendFrame_command h4
    have e := plain (by rw [hcm]; decide)
    refine .inl (.send (e ▸ hcm) ?_)
    rw [val_eq, show b!"destination" = Hdr.destination from rfl, e, send_destination h4]; rfl
  | frame q =>
    rw [hcall] at h4 h5
    obtain ⟨h4, h6⟩ := h4
    have e := plain (by rw [h4]; intro e; rw [e] at h6; exact absurd h6 (by decide))
    exact .inl (by rw [e, h4]; exact made_asks hv (hm q h5) _)
  | subscribe d ak o =>
    rw [hcall] at h4
    obtain ⟨_, _, _, _, h4⟩ := h4
    have hcm := (subscribe_key h4).1
    have e := plain (by rw [hcm]; decide)
    obtain ⟨k1, k2, k3⟩ := subscribe_shape h4
    refine .inl (.subscribe (e ▸ hcm) ?_ ?_ ⟨ak.str, ?_, ack_str ak⟩)
    · rw [val_eq, show b!"destination" = Hdr.destination from rfl, e, k1]; rfl
    · rw [val_eq, show b!"id" = Hdr.id from rfl, e, k3]; rfl
    · rw [val_eq, show b!"ack" = Hdr.ack from rfl, e, k2]
  | unsubscribe i o =>
    rw [hcall] at h4
    obtain ⟨_, _, h4⟩ := h4
    have hcm : f.command = Cmd.unsubscribe := (wire_command h2).trans (unsub_command h4)
    obtain ⟨i, q, k1, k2, k3, k4⟩ := unsub_written h hw hcm
    exact .inl (.unsubscribe hcm i (by rw [val_eq]; exact k1) ⟨q, k2, k3, by rw [val_eq]; exact k4⟩)
  | disconnect =>
    rw [hcall] at h4
    obtain ⟨_, h4⟩ := h4
    have hcm : f.command = Cmd.disconnect := (wire_command h2).trans (by rw [h4]; rfl)
    exact .inr ⟨hcm, bye_written h (unmistaken_apart h hu) hw hcm⟩
  | mustDisconnect => rw [hcall] at h4; exact h4.elim

/-- When ids are distinct it is enough that every MESSAGE is for a subscription of the client. -/
theorem addressed_unmistaken {cfg : Cfg} {n : Nat} {es : List Ev} {s : Sys} (h : (Sys.init n).run cfg es = some s) (hx : Spec.Distinct s) (ha : Spec.Addressed s) : Spec.Unmistaken s := by
  intro m hmr hmc r hr hd heq
  obtain ⟨q, hq, hqc, i, hi1, hi2⟩ := ha m hmr hmc
  have ho := (all_run h).origin
  have acc : ∀ r, r ∈ Spec.handedOver s → ∃ t, (t, r) ∈ acceptedIn s.trace ∧ .accepted t r ∈ s.trace := by
    intro r hr
    obtain ⟨o, h1, h2⟩ := List.mem_filterMap.1 hr
    cases o <;> simp only [Option.some.injEq, reduceCtorEq] at h2
    subst h2
    exact ⟨_, List.mem_filterMap.2 ⟨_, h1, rfl⟩, h1⟩
  obtain ⟨t, ht1, ht2⟩ := acc r hr
  obtain ⟨u, hu1, hu2⟩ := acc q hq
  obtain ⟨th, k1, k2⟩ := ho.acc t r ht1
  obtain ⟨thu, k3, k4⟩ := ho.acc u q hu1
  -- the one is a `Disconnect`
  have hcd : th.call = .disconnect ∧ r.chan ≠ none := by
    by_cases hcs : ∃ d a o, th.call = .subscribe d a o
    · obtain ⟨d, a, o, hcs⟩ := hcs
      rw [hcs] at k2
      obtain ⟨_, _, _, _, _, _, _, _, _, _, _, hf⟩ := k2
      exact absurd ((subscribe_key hf).1.symm.trans hd) (by decide)
    · obtain ⟨hf, hch⟩ := (reqOf_caller (fun d a o h => hcs ⟨d, a, o, h⟩)).1 k2
      refine ⟨frameOf_disconnect hf hd, ?_⟩
      rcases hch with ⟨_, h0⟩ | ⟨n, c, h0, _⟩
      · have e : r.frame.header.contains Hdr.receipt = some i := (val_eq _ _).symm.trans (heq.symm.trans hi1)
        rw [h0] at e; cases e
      · rw [h0]; simp
  -- the other a `Subscribe`
  have hcs : ∃ d a o, thu.call = .subscribe d a o := by
    by_cases hcs : ∃ d a o, thu.call = .subscribe d a o
    · exact hcs
    · obtain ⟨hf, _⟩ := (reqOf_caller (fun d a o h => hcs ⟨d, a, o, h⟩)).1 k4
      exact absurd hqc (frameOf_not_subscribe (fun d a o h => hcs ⟨d, a, o, h⟩) hf)
  obtain ⟨d, a, o, hcs⟩ := hcs
  rw [hcs] at k4
  obtain ⟨nn, _, _, _, b, _, e1, _, _, _, _, hf⟩ := k4
  have hk := (subscribe_key hf).2
  have hid := (subscribe_shape hf).2.2
  have hbi : b.id = i := by
    rw [val_eq, show b!"id" = Hdr.id from rfl, hid] at hi2
    exact Option.some.inj hi2
  have := hx.uniq t r u q i ht2 hu2 hcd.2 (by rw [e1]; simp) (.inl (by rw [← val_eq]; exact heq.symm.trans hi1))
    (.inr ⟨hqc, by rw [hk, hbi]⟩)
  subst this
  rw [k1] at k3
  cases k3
  rw [hcd.1] at hcs
  cases hcs

/-- **C93** when the ids are left to the library: it is enough that every MESSAGE is for a subscription of the client. -/
theorem C93_library_partial {opts : List ConnOpt} {remote : Option Bytes} {inp : Bytes} {g : Frame} {ci : ConnInfo}
    (hc : connect opts remote true inp = (some g, .ok ci)) {cfg : Cfg} {n : Nat} {es : List Ev} {s : Sys} (h : (Sys.init n).run cfg es = some s)
    (hm : ∀ f, .call (.frame f) ∈ es → Spec.Made ci.version f) (hl : Spec.library cfg [] (Sys.init n) es = true) (ha : Spec.Addressed s) :
    Spec.Conversation ci.version (some g :: Spec.stream s) :=
  C93_conversation_partial hc h hm (addressed_unmistaken h (lib_distinct h hl) ha)

/-- **C93** is false as worded: when the user gives a subscription the name of the receipt that `Disconnect` asks for, a MESSAGE for it is taken for the
answer to the DISCONNECT. `Disconnect` returns an error and the connection stays open; the SEND goes out after the DISCONNECT. -/
theorem C93_false : ∃ (opts : List ConnOpt) (inp : Bytes) (g : Frame) (ci : ConnInfo) (cfg : Cfg) (es : List Ev) (s : Sys),
    connect opts none true inp = (some g, .ok ci) ∧ (Sys.init 0).run cfg es = some s ∧ (∀ f, .call (.frame f) ∉ es) ∧
    ¬ Spec.Conversation ci.version (some g :: Spec.stream s) := by
  obtain ⟨ci, hci, _⟩ := ExTalk.connects
  refine ⟨[], ExTalk.hello, ExTalk.opening, ci, Ex.cfg, ExTalk.mistaken, ExTalk.mistakenEnd, hci, ExTalk.mistaken_run, ?_, ?_⟩
  · intro f hf
    simp [ExTalk.mistaken] at hf
  · rintro ⟨g, rest, h1, _, h2⟩
    obtain ⟨_, rfl⟩ := List.cons.inj h1
    rcases h2 _ _ _ ExTalk.mistaken_stream with h | ⟨_, h⟩
    · cases h with
      | send hc => exact absurd hc (by decide)
      | subscribe hc => exact absurd hc (by decide)
      | unsubscribe hc => exact absurd hc (by decide)
      | ack12 _ hc => exact absurd hc (by decide)
      | ack11 _ hc => exact absurd hc (by decide)
      | ack10 _ hc => exact absurd hc (by decide)
      | transaction hc => exact absurd hc (by decide)
    · cases h

-- The hypotheses hold of a session with a subscription, an ACK, a transaction, a heart-beat and a graceful end.
example : Spec.stream ExTalk.talkEnd = (
    [some (Frame.new Cmd.subscribe [(Hdr.destination, b!"/q"), (Hdr.ack, b!"client"), (Hdr.id, b!"1")]), some ExTalk.ackOf,
     some (Frame.new Cmd.begin_ [(Hdr.transaction, b!"2")]), none, some (Frame.new Cmd.unsubscribe [(Hdr.id, b!"1"), (Hdr.receipt, b!"1")]),
     some (Frame.new Cmd.disconnect [(Hdr.receipt, b!"3")])]) := by decide +kernel
example : ∀ f, .call (.frame f) ∈ ExTalk.talk → Spec.Made b!"1.2" f := by
  intro f hf
  simp only [ExTalk.talk, List.mem_cons, reduceCtorEq, Ev.call.injEq, Call.frame.injEq, false_or, List.not_mem_nil, or_false] at hf
  rcases hf with rfl | rfl
  · exact .inl ⟨{ header := some (ExTalk.message b!"1").header, subscription := some ⟨b!"1", .client⟩, hasConn := true }, true, rfl⟩
  · exact .inr (.inl ⟨1, rfl⟩)
example : Spec.library Ex.cfg [] (Sys.init 0) ExTalk.talk = true := by decide +kernel
theorem ExTalk.talk_read {m : Frame} (h : .read (some m) ∈ ExTalk.talkEnd.trace) : m = ExTalk.message b!"1" ∨ m = Ex.receiptFrame b!"3" := by
  have h1 : some m ∈ readIn ExTalk.talkEnd.trace := List.mem_filterMap.2 ⟨_, h, rfl⟩
  have h2 : readIn ExTalk.talkEnd.trace = [some (ExTalk.message b!"1"), some (Ex.receiptFrame b!"3")] := by decide +kernel
  rw [h2] at h1
  simpa using h1
example : Spec.Addressed ExTalk.talkEnd := by
  intro m hm hc
  have hr : (Spec.handedOver ExTalk.talkEnd)[0]? =
      some ⟨Frame.new Cmd.subscribe [(Hdr.destination, b!"/q"), (Hdr.ack, b!"client"), (Hdr.id, b!"1")], some 0⟩ := by decide +kernel
  rcases ExTalk.talk_read hm with rfl | rfl
  · exact ⟨_, List.mem_of_getElem? hr, rfl, b!"1", rfl, rfl⟩
  · exact absurd hc (by decide)
example : Spec.Unmistaken ExTalk.talkEnd := by
  intro m hm hc r hr hd
  have hr2 : (Spec.handedOver ExTalk.talkEnd).all (fun r => decide (r.frame.command = b!"DISCONNECT" → Spec.val r.frame b!"receipt" = some b!"3")) = true := by
    decide +kernel
  have h3 := of_decide_eq_true (List.all_eq_true.1 hr2 r hr) hd
  rcases ExTalk.talk_read hm with rfl | rfl
  · rw [h3]; decide
  · exact absurd hc (by decide)

end Stomp.Client
