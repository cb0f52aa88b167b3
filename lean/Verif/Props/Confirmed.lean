import Verif.Props.TopicOrder
import Verif.Proofs.Server.Confirmed
import Verif.Proofs.Server.Taken
import Verif.Spec.Confirmed
/-! # C64: a receipt is a barrier -/
namespace Stomp
open Stomp.Spec (firstValue)

theorem carries_prefix {sent : List (Option Frame)} {received : List Frame} (h : Spec.Carries sent received) (hwf : ∀ f, some f ∈ sent → Spec.WellFormed f) :
    received <+: sent.filterMap id := by
  obtain ⟨bytes, hb, hr⟩ := h
  have hb : bytes = (writeAll sent).take bytes.length := List.prefix_iff_eq_take.1 hb
  obtain ⟨k, hk, _⟩ := C04_stream_cut sent hwf bytes.length
  rw [hb, hk] at hr
  exact hr.trans ((List.take_prefix k sent).filterMap id)

theorem stream_written (s : Client.Sys) : (Client.Spec.stream s).filterMap id = Client.Spec.written s := by
  unfold Client.Spec.stream Client.Spec.written
  rw [List.filterMap_filterMap]
  congr 1
  funext o
  cases o <;> rfl

theorem handedOver_eq (s : Client.Sys) : Client.Spec.handedOver s = (Client.acceptedIn s.trace).map (·.2) := by
  unfold Client.Spec.handedOver Client.acceptedIn
  rw [List.map_filterMap]
  congr 1
  funext o
  cases o <;> rfl

theorem sentIn_eq (p : List Client.Obs) : Spec.sentIn p = ((Client.acceptedIn p).map (·.2)).filterMap (fun r => Client.Spec.wire r.frame) := by
  unfold Spec.sentIn Client.acceptedIn
  rw [List.map_filterMap, List.filterMap_filterMap]
  congr 1
  funext o
  cases o <;> rfl

/-- An element whose key occurs once has one place. -/
theorem place_unique {α β : Type} {t : α} {r r' : β} : ∀ {a b a' b' : List (α × β)}, a ++ (t, r) :: b = a' ++ (t, r') :: b' → ((a ++ (t, r) :: b).map (·.1)).Nodup → a = a'
  | [], _, [], _, _, _ => rfl
  | [], b, x :: a', b', e, h => by
    injection e with e1 e2
    subst e2
    rw [List.nil_append, List.map_cons, List.nodup_cons] at h
    exact absurd (List.mem_map.2 ⟨(t, r'), by simp, rfl⟩) h.1
  | x :: a, b, [], b', e, h => by
    injection e with e1 e2
    subst e1
    rw [List.cons_append, List.map_cons, List.nodup_cons] at h
    exact absurd (List.mem_map.2 ⟨(t, r), by simp, rfl⟩) h.1
  | x :: a, b, y :: a', b', e, h => by
    injection e with e1 e2
    subst e1
    rw [List.cons_append, List.map_cons, List.nodup_cons] at h
    rw [place_unique e2 h.2]

/-- **C64** (the barrier). In every execution of the server and of clients that use the library, connected by byte streams: when a call that asked for a receipt (`Send` with the option `Receipt`,
a method of `Transaction` that asks for one, `Disconnect`) has returned nil, then the server has processed everything this program put on the wire up to and including this request, in order, as
the specification of sessions says — except that the request itself may be one which the specification has as a protocol error (the RECEIPT goes out before the server looks); then nothing after it
has been processed. -/
theorem C64_barrier (cfg : Server.Config) (es : List Server.Sys.Ev) (s : Server.Sys) (h : Server.Sys.init.run cfg es = some s) (hc : s.crashed = false)
    (peers : Nat → Spec.Peer) (hp : ∀ c, c < s.conns.length → (peers c).Ok)
    (up : ∀ c, c < s.conns.length → Spec.Carries (some (peers c).hello :: Client.Spec.stream (peers c).state) (Server.Spec.receivedBy c es))
    (c : Nat) (k : Server.Conn) (hk : s.conns[c]? = some k) (hn : .panic ∉ k.outbox)
    (down : Spec.Carries (k.out.map (·.frame)) ((peers c).welcome :: Spec.framesRead (peers c).state))
    (hd : Client.Spec.Distinct (peers c).state) (t : Nat) (call : Client.Call) (hret : Client.Spec.Returned (peers c).state t call .ok) (hcall : Client.Spec.Reports call)
    (p q : List Client.Obs) (r : Client.Req) (htr : (peers c).state.trace = p ++ .accepted t r :: q) (v : Bytes) (hv : r.frame.header.contains Hdr.receipt = some v) :
    ∃ st, Server.Spec.After cfg.auth ((peers c).hello :: Spec.sentIn p) st ∧
      ((∃ st', Server.Spec.Step cfg.auth st r.frame st' ∧ st'.done <+: k.effective) ∨
       ((¬∃ st', Server.Spec.Step cfg.auth st r.frame st') ∧ k.effective = st.done)) := by
  have hlen := (List.getElem?_eq_some_iff.1 hk).1
  have upwf : ∀ j, j < s.conns.length → ∀ g, some g ∈ some (peers j).hello :: Client.Spec.stream (peers j).state → Spec.WellFormed g := by
    intro j hj g hg
    rcases List.mem_cons.1 hg with hg | hg
    · injection hg with hg; rw [hg]; exact (hp j hj).hello.2
    · exact Client.stream_wf (hp j hj).run (hp j hj).sound g hg
  have hin : ∀ j, j < s.conns.length → ∀ g ∈ Server.Spec.receivedBy j es, Spec.WellFormed g :=
    fun j hj g hg => upwf j hj g (carries_mem (up j hj) (upwf j hj) g hg)
  have hall := Client.all_run (hp c hlen).run
  have hr : (t, r) ∈ Client.acceptedIn (peers c).state.trace := List.mem_filterMap.2 ⟨.accepted t r, by rw [htr]; simp, rfl⟩
  -- the RECEIPT was written by the server
  obtain ⟨g, hg, hread⟩ : ∃ g, Client.Spec.ReceiptFor g v ∧ g ∈ Spec.framesRead (peers c).state := by
    rcases Client.C22_receipt_partial (hp c hlen).run hret hcall with ⟨r0, h1, _, h2⟩ | ⟨_, _, h1⟩
    · have e := hall.origin.one (List.mem_filterMap.2 ⟨_, List.singleton_sublist.1 h1, rfl⟩) hr
      subst e
      obtain ⟨g, h3, _, h4⟩ := h2 v hv
      exact ⟨g, h3, List.mem_filterMap.2 ⟨_, h4.subset List.mem_cons_self, rfl⟩⟩
    · exact absurd (List.singleton_sublist.2 (by rw [htr]; simp)) (h1 r)
  obtain ⟨w, hw, hwf⟩ := List.mem_map.1 (carries_mem down (Server.out_wf h hc hin hk) g (List.mem_cons_of_mem _ hread))
  -- it answers one of the frames processed
  obtain ⟨ces, hrun, henv⟩ := Server.conn_run h hc hk
  obtain ⟨a, f, b, v', st, hhist, hgv, hfv, hfc, hafter, hstep⟩ := Server.receipt_session hrun henv hn hw hwf hg.1
  have hvv : v' = v := by
    have h1 := hg.2
    rw [contains_eq_firstValue] at h1
    have h2 : firstValue g.header Hdr.receiptId = some v' := hgv
    rw [h1] at h2; injection h2 with h2; exact h2.symm
  subst hvv
  -- which the client wrote
  have hpre : a ++ f :: b <+: (peers c).hello :: Client.Spec.written (peers c).state := by
    have h1 := carries_prefix (up c hlen) (upwf c hlen)
    rw [← Server.received_run h hc hk, hhist] at h1
    have h2 : (some (peers c).hello :: Client.Spec.stream (peers c).state).filterMap id = (peers c).hello :: Client.Spec.written (peers c).state := by
      rw [← stream_written]; rfl
    rw [h2] at h1
    exact (List.prefix_append ..).trans h1
  obtain ⟨z, hz⟩ := hpre
  cases a with
  | nil =>
    injection hz with h1 _
    rw [h1, (hp c hlen).hello.1] at hfc
    exact absurd (by decide) hfc
  | cons x a =>
    rw [List.cons_append, List.cons_append] at hz
    injection hz with h1 hz
    subst h1
    obtain ⟨out, rest, ho, hwr⟩ := Client.C21_prefix (hp c hlen).run
    rw [hwr, List.append_assoc] at hz
    obtain ⟨m1, m2, ho2, hm1, hm2⟩ := List.filterMap_eq_append_iff.1 hz.symm
    obtain ⟨l1, r', l2, hm3, hl1, hr', hl2⟩ := List.filterMap_eq_cons_iff.1 hm2
    subst hm3
    rw [handedOver_eq, ho2] at ho
    have ho : (Client.acceptedIn (peers c).state.trace).map (·.2) = (m1 ++ l1) ++ r' :: (l2 ++ rest) := by rw [ho]; simp
    obtain ⟨A1, A2, hA, hA1, hA2⟩ := List.map_eq_append_iff.1 ho
    obtain ⟨⟨t', r1⟩, A3, hA3, hr1, _⟩ := List.map_eq_cons_iff.1 hA2
    dsimp only at hr1
    subst hr1
    subst hA3
    obtain ⟨he, _⟩ := Client.wire_same hr' (fun e => hfc (by rw [e]; decide))
    subst he
    have hmem : (t', r1) ∈ Client.acceptedIn (peers c).state.trace := by rw [hA]; simp
    -- and it is the frame of this call
    have hreg : ∀ {t : Nat} {r : Client.Req}, (t, r) ∈ Client.acceptedIn (peers c).state.trace → r.frame.header.contains Hdr.receipt = some v' → r.chan ≠ none := by
      intro t r hm hc'
      obtain ⟨th, _, hq⟩ := hall.origin.acc t r hm
      generalize th.call = cl at hq
      by_cases hs : ∀ d a o, cl ≠ .subscribe d a o
      · rcases ((Client.reqOf_caller hs).1 hq).2 with ⟨_, h2⟩ | ⟨n, _, h2, _⟩
        · rw [h2] at hc'; cases hc'
        · rw [h2]; simp
      · cases cl with
        | subscribe d a o => obtain ⟨n, _, _, _, _, _, h2, _⟩ := hq; rw [h2]; simp
        | _ => exact absurd (fun _ _ _ => by simp) hs
    have hv1 : r1.frame.header.contains Hdr.receipt = some v' := by rw [contains_eq_firstValue]; exact hfv
    have htt := hd.uniq t' r1 t r v' (Client.mem_acceptedIn hmem) (Client.mem_acceptedIn hr) (hreg hmem hv1) (hreg hr hv) (Or.inl hv1) (Or.inl hv)
    subst htt
    have hrr := hall.origin.one hmem hr
    subst hrr
    have hsplit : Client.acceptedIn (peers c).state.trace = Client.acceptedIn p ++ (t', r1) :: Client.acceptedIn q := by
      rw [htr]; unfold Client.acceptedIn; rw [List.filterMap_append]; rfl
    have hnd := hall.origin.nodup
    rw [hA] at hnd
    have hp1 : A1 = Client.acceptedIn p := place_unique (hA.symm.trans hsplit) hnd
    have ha : a = Spec.sentIn p := by
      rw [sentIn_eq, ← hp1, hA1, List.filterMap_append, hm1, List.filterMap_eq_nil_iff.2 hl1, List.append_nil]
    subst ha
    refine ⟨st, hafter, ?_⟩
    rcases hstep with h5 | ⟨h5, h6, _⟩
    · exact Or.inl h5
    · exact Or.inr ⟨h5, h6⟩

/-! ## What has been accepted -/

namespace Server

theorem after_opened {auth : Bytes → Bytes → Bool} {h : List Frame} {st : Spec.St} (ha : Spec.After auth h st) (hne : h ≠ []) : st.opened = true := by
  cases ha with
  | nil => exact absurd rfl hne
  | snoc _ hs => cases hs <;> first | rfl | assumption

/-- The SENDs outside transactions took effect, in order. -/
theorem after_lone {auth : Bytes → Bytes → Bool} {h : List Frame} {st : Spec.St} (ha : Spec.After auth h st) : ((h.filter Stomp.Spec.lone).map Spec.clean).Sublist st.done := by
  induction ha with
  | nil => simp
  | @snoc fs f st st' ha hs ih =>
    rw [List.filter_append, List.map_append]
    have grow : ∀ {l : List Frame}, Stomp.Spec.lone f = false → ((fs.filter Stomp.Spec.lone).map Spec.clean).Sublist l →
        ((fs.filter Stomp.Spec.lone).map Spec.clean ++ ([f].filter Stomp.Spec.lone).map Spec.clean).Sublist l := by
      intro l hl h1
      rw [show [f].filter Stomp.Spec.lone = [] by simp [hl]]
      simpa using h1
    have notsend : f.command ≠ b!"SEND" → Stomp.Spec.lone f = false := fun hn => by simp [Stomp.Spec.lone, hn]
    cases hs with
    | connect _ hx => exact grow (notsend (by rcases hx.command with e | e <;> rw [e] <;> decide)) ih
    | disconnect _ hx => exact grow (notsend (by rw [hx]; decide)) ih
    | begin_ t _ hx => exact grow (notsend (by rw [hx]; decide)) ih
    | abort t l _ hx => exact grow (notsend (by rw [hx]; decide)) ih
    | commit t l _ hx => exact grow (notsend (by rw [hx]; decide)) (ih.trans (List.sublist_append_left ..))
    | hold t l _ _ ht => exact grow (by have ht : firstValue f.header b!"transaction" = some t := ht; simp [Stomp.Spec.lone, ht]) ih
    | now _ _ _ => exact ih.append ((List.filter_sublist ..).map _)
    | subscribe id dest _ hx => exact grow (notsend (by rw [hx]; decide)) ih
    | unsubscribe id _ hx => exact grow (notsend (by rw [hx]; decide)) ih

/-- An open transaction holds its SENDs, in order. -/
theorem after_within {auth : Bytes → Bytes → Bool} {h : List Frame} {st : Spec.St} (ha : Spec.After auth h st) {t : Bytes} {bg : Frame} (hbc : bg.command = b!"BEGIN")
    (hbt : Spec.hdr bg b!"transaction" = some t) : ∀ {a b : List Frame}, h = a ++ bg :: b → (∀ g ∈ b, Stomp.Spec.bounds t g = false) →
      ∃ l, st.tx t = some l ∧ l.filter (fun f => decide (f.command = b!"SEND")) = (b.filter (Stomp.Spec.within t)).map Spec.clean := by
  induction ha with
  | nil => intro a b e; simp at e
  | @snoc fs f st st' ha hs ih =>
    intro a b e hb
    rcases List.eq_nil_or_concat b with rfl | ⟨b', f', rfl⟩
    · have e : fs ++ [f] = a ++ [bg] := e
      obtain ⟨_, e2⟩ := List.append_inj' e rfl
      injection e2 with e2; subst e2
      cases hs with
      | begin_ t' _ _ ht' =>
        rw [hbt] at ht'; injection ht' with ht'; subst ht'
        exact ⟨[], by simp [Spec.upd], rfl⟩
      | connect _ hx => rcases hx.command with e | e <;> rw [hbc] at e <;> exact absurd e (by decide)
      | hold _ _ _ hx => rcases hx with e | ⟨e | e, _⟩ <;> rw [hbc] at e <;> exact absurd e (by decide)
      | now _ hx => rcases hx with e | ⟨e | e, _⟩ <;> rw [hbc] at e <;> exact absurd e (by decide)
      | disconnect _ hx => rw [hbc] at hx; exact absurd hx (by decide)
      | abort _ _ _ hx => rw [hbc] at hx; exact absurd hx (by decide)
      | commit _ _ _ hx => rw [hbc] at hx; exact absurd hx (by decide)
      | subscribe _ _ _ hx => rw [hbc] at hx; exact absurd hx (by decide)
      | unsubscribe _ _ hx => rw [hbc] at hx; exact absurd hx (by decide)
    · have e : fs ++ [f] = (a ++ bg :: b') ++ [f'] := by rw [e]; simp
      obtain ⟨e1, e2⟩ := List.append_inj' e rfl
      injection e2 with e2; subst e2
      have hb' : ∀ g ∈ b', Stomp.Spec.bounds t g = false := fun g hg => hb g (by simp [hg])
      have hbf := hb f (by simp)
      obtain ⟨l, hl, hlf⟩ := ih e1 hb'
      have same : ∀ {tx : Bytes → Option (List Frame)}, tx t = st.tx t → Stomp.Spec.within t f = false →
          ∃ l, tx t = some l ∧ l.filter (fun f => decide (f.command = b!"SEND")) = ((b' ++ [f]).filter (Stomp.Spec.within t)).map Spec.clean := by
        intro tx h1 h2
        refine ⟨l, h1.trans hl, ?_⟩
        rw [List.filter_append, show [f].filter (Stomp.Spec.within t) = [] by simp [h2], List.append_nil]; exact hlf
      have notsend : f.command ≠ b!"SEND" → Stomp.Spec.within t f = false := fun hn => by simp [Stomp.Spec.within, hn]
      have other : ∀ {t' : Bytes}, f.command ∈ [b!"BEGIN", b!"COMMIT", b!"ABORT"] → Spec.hdr f b!"transaction" = some t' → t ≠ t' := by
        intro t' h1 h2 h3
        subst h3
        have h2 : firstValue f.header b!"transaction" = some t := h2
        unfold Stomp.Spec.bounds at hbf
        exact of_decide_eq_false hbf ⟨h1, h2⟩
      rw [List.concat_eq_append]
      cases hs with
      | connect _ hx => exact same rfl (notsend (by rcases hx.command with e | e <;> rw [e] <;> decide))
      | disconnect _ hx => exact same rfl (notsend (by rw [hx]; decide))
      | begin_ t' _ hx ht' => exact same (by simp [Spec.upd, other (by rw [hx]; decide) ht']) (notsend (by rw [hx]; decide))
      | abort t' _ _ hx ht' => exact same (by simp [Spec.upd, other (by rw [hx]; decide) ht']) (notsend (by rw [hx]; decide))
      | commit t' _ _ hx ht' => exact same (by simp [Spec.upd, other (by rw [hx]; decide) ht']) (notsend (by rw [hx]; decide))
      | now _ _ ht' => exact same rfl (by have ht' : firstValue f.header b!"transaction" = none := ht'; simp [Stomp.Spec.within, ht'])
      | subscribe _ _ _ hx => exact same rfl (notsend (by rw [hx]; decide))
      | unsubscribe _ _ hx => exact same rfl (notsend (by rw [hx]; decide))
      | hold t' l' _ hx ht' hl' =>
        by_cases htt : t = t'
        · subst htt
          rw [hl] at hl'; injection hl' with hl'; subst hl'
          refine ⟨l ++ [Spec.clean f], by simp [Spec.upd], ?_⟩
          have ht' : firstValue f.header b!"transaction" = some t := ht'
          rw [List.filter_append, List.filter_append, List.map_append, hlf]
          congr 1
          by_cases hf : f.command = b!"SEND"
          · have h1 : (Spec.clean f).command = b!"SEND" := hf
            simp [Stomp.Spec.within, hf, ht', h1]
          · have h1 : (Spec.clean f).command ≠ b!"SEND" := hf
            simp [Stomp.Spec.within, hf, h1]
        · exact same (by simp [Spec.upd, htt]) (by
            have ht' : firstValue f.header b!"transaction" = some t' := ht'
            simp [Stomp.Spec.within, ht', Ne.symm htt])

/-- The frames of the messages. -/
theorem messages_frames (me : Nat) (fs : List Frame) (i : Nat) :
    (Spec.messages me i fs).map (·.frame) = (fs.filter (fun f => decide (f.command = b!"SEND"))).map (fun f => { f with command := b!"MESSAGE" }) := by
  induction fs generalizing i with
  | nil => rfl
  | cons f fs ih =>
    simp only [Spec.messages]
    by_cases hf : f.command = b!"SEND"
    · rw [if_pos hf, List.filter_cons, if_pos (by simpa using hf), List.map_cons, List.map_cons, ih]
    · rw [if_neg hf, List.filter_cons, if_neg (by simpa using hf)]; exact ih i

theorem has_run {cfg : Config} {es : List Sys.Ev} {s : Sys} (h : Sys.init.run cfg es = some s) (hc : s.crashed = false) {c : Nat} {k : Conn}
    (hk : s.conns[c]? = some k) {o : Msg} (ho : o ∈ Spec.messages c 0 k.effective) : Stomp.Spec.Has cfg es s o :=
  ⟨fun d hd hq => C37_one_place_partial cfg es s h hc d o ⟨hq, hd, c, k, hk, ho⟩, fun _ hd _ => taken_or_pending h hc hk ho hd⟩

end Server

/-- **C64** (messages). When a `Send` outside transactions that asked for a receipt, or any other call with a receipt that the server's session allows, has returned nil, the server has every
message which this program sent before outside transactions, and this one, in order: for each of the SEND frames up to this request there is a message, made of this frame, in the order of the
frames; and each of them is, if it is for a queue, in exactly one of the places of C37, once, and if it is for a topic, sent to the topic's subscriptions or waiting to be. -/
theorem C64_sends (cfg : Server.Config) (es : List Server.Sys.Ev) (s : Server.Sys) (h : Server.Sys.init.run cfg es = some s) (hc : s.crashed = false)
    (peers : Nat → Spec.Peer) (hp : ∀ c, c < s.conns.length → (peers c).Ok)
    (up : ∀ c, c < s.conns.length → Spec.Carries (some (peers c).hello :: Client.Spec.stream (peers c).state) (Server.Spec.receivedBy c es))
    (c : Nat) (k : Server.Conn) (hk : s.conns[c]? = some k) (hn : .panic ∉ k.outbox)
    (down : Spec.Carries (k.out.map (·.frame)) ((peers c).welcome :: Spec.framesRead (peers c).state))
    (hd : Client.Spec.Distinct (peers c).state) (t : Nat) (call : Client.Call) (hret : Client.Spec.Returned (peers c).state t call .ok) (hcall : Client.Spec.Reports call)
    (p q : List Client.Obs) (r : Client.Req) (htr : (peers c).state.trace = p ++ .accepted t r :: q) (v : Bytes) (hv : r.frame.header.contains Hdr.receipt = some v) :
    ∃ ms : List Server.Msg, ms.Sublist (Server.Spec.messages c 0 k.effective) ∧ ms.map (·.frame) = ((Spec.sentIn p ++ [r.frame]).filter Spec.lone).map Spec.asMessage ∧
      ∀ m ∈ ms, Spec.Has cfg es s m := by
  obtain ⟨st, hafter, hstep⟩ := C64_barrier cfg es s h hc peers hp up c k hk hn down hd t call hret hcall p q r htr v hv
  have hlen := (List.getElem?_eq_some_iff.1 hk).1
  have hhello : Spec.lone (peers c).hello = false := by
    unfold Spec.lone
    rw [(hp c hlen).hello.1]
    exact decide_eq_false (fun h => absurd h.1 (by decide))
  have hsub : (((Spec.sentIn p ++ [r.frame]).filter Spec.lone).map Server.Spec.clean).Sublist k.effective := by
    rcases hstep with ⟨st', h1, h2⟩ | ⟨h1, h2⟩
    · have h3 := Server.after_lone (hafter.snoc h1)
      rw [List.cons_append, List.filter_cons, if_neg (by rw [hhello]; decide)] at h3
      exact h3.trans h2.sublist
    · have h3 := Server.after_lone hafter
      rw [List.filter_cons, if_neg (by rw [hhello]; decide)] at h3
      have h4 : Spec.lone r.frame = false := by
        apply Classical.byContradiction
        intro hl
        have hl : Spec.lone r.frame = true := by simpa using hl
        have hl := of_decide_eq_true hl
        exact h1 ⟨_, .now (Server.after_opened hafter (by simp)) (Or.inl hl.1) hl.2⟩
      rw [List.filter_append, show [r.frame].filter Spec.lone = [] by simp [h4], List.append_nil, h2]
      exact h3
  have hsub2 : (((Spec.sentIn p ++ [r.frame]).filter Spec.lone).map Spec.asMessage).Sublist ((Server.Spec.messages c 0 k.effective).map (·.frame)) := by
    rw [Server.messages_frames]
    have h3 := (hsub.filter (fun f => decide (f.command = b!"SEND"))).map (fun f : Frame => { f with command := b!"MESSAGE" })
    have h4 : (((Spec.sentIn p ++ [r.frame]).filter Spec.lone).map Server.Spec.clean).filter (fun f => decide (f.command = b!"SEND")) =
        ((Spec.sentIn p ++ [r.frame]).filter Spec.lone).map Server.Spec.clean := by
      refine List.filter_eq_self.2 (fun f hf => ?_)
      obtain ⟨g, hg, rfl⟩ := List.mem_map.1 hf
      have := of_decide_eq_true (List.mem_filter.1 hg).2
      exact decide_eq_true this.1
    rw [h4, List.map_map] at h3
    exact h3
  obtain ⟨ms, hms, he⟩ := List.sublist_map_iff.1 hsub2
  exact ⟨ms, hms, he.symm, fun m hm => Server.has_run h hc hk (hms.subset hm)⟩

/-- **C64** (transactions). When the COMMIT of a transaction that asked for a receipt has returned nil, the server has all the messages of the transaction, in order and in one piece: nothing else
this program sent comes between them. -/
theorem C64_commit (cfg : Server.Config) (es : List Server.Sys.Ev) (s : Server.Sys) (h : Server.Sys.init.run cfg es = some s) (hc : s.crashed = false)
    (peers : Nat → Spec.Peer) (hp : ∀ c, c < s.conns.length → (peers c).Ok)
    (up : ∀ c, c < s.conns.length → Spec.Carries (some (peers c).hello :: Client.Spec.stream (peers c).state) (Server.Spec.receivedBy c es))
    (c : Nat) (k : Server.Conn) (hk : s.conns[c]? = some k) (hn : .panic ∉ k.outbox)
    (down : Spec.Carries (k.out.map (·.frame)) ((peers c).welcome :: Spec.framesRead (peers c).state))
    (hd : Client.Spec.Distinct (peers c).state) (t : Nat) (call : Client.Call) (hret : Client.Spec.Returned (peers c).state t call .ok) (hcall : Client.Spec.Reports call)
    (p q : List Client.Obs) (r : Client.Req) (htr : (peers c).state.trace = p ++ .accepted t r :: q) (v : Bytes) (hv : r.frame.header.contains Hdr.receipt = some v)
    (tx : Bytes) (hcm : r.frame.command = b!"COMMIT" ∧ firstValue r.frame.header b!"transaction" = some tx)
    (a b : List Frame) (bg : Frame) (hsent : Spec.sentIn p = a ++ bg :: b) (hbg : bg.command = b!"BEGIN" ∧ firstValue bg.header b!"transaction" = some tx)
    (hb : ∀ g ∈ b, Spec.bounds tx g = false) :
    ∃ ms : List Server.Msg, ms <:+: Server.Spec.messages c 0 k.effective ∧ ms.map (·.frame) = (b.filter (Spec.within tx)).map Spec.asMessage ∧ ∀ m ∈ ms, Spec.Has cfg es s m := by
  obtain ⟨st, hafter, hstep⟩ := C64_barrier cfg es s h hc peers hp up c k hk hn down hd t call hret hcall p q r htr v hv
  obtain ⟨l, hl, hlf⟩ := Server.after_within hafter hbg.1 hbg.2 (a := (peers c).hello :: a) (b := b) (by rw [hsent]; rfl) hb
  have hopen := Server.after_opened hafter (by simp)
  have hpre : st.done ++ l <+: k.effective := by
    rcases hstep with ⟨st', h1, h2⟩ | ⟨h1, _⟩
    · have hne : ∀ {x : Bytes}, r.frame.command = x → x ≠ b!"COMMIT" → False := fun h3 h4 => h4 (h3.symm.trans hcm.1)
      cases h1 with
      | commit t' l' _ _ ht' hl' =>
        have ht' : firstValue r.frame.header b!"transaction" = some t' := ht'
        rw [hcm.2] at ht'; injection ht' with ht'; subst ht'
        rw [hl] at hl'; injection hl' with hl'; subst hl'
        exact h2
      | connect ho _ => rw [hopen] at ho; cases ho
      | hold _ _ _ hx => rcases hx with e | ⟨e | e, _⟩ <;> exact (hne e (by decide)).elim
      | now _ hx => rcases hx with e | ⟨e | e, _⟩ <;> exact (hne e (by decide)).elim
      | disconnect _ hx => exact (hne hx (by decide)).elim
      | begin_ _ _ hx => exact (hne hx (by decide)).elim
      | abort _ _ _ hx => exact (hne hx (by decide)).elim
      | subscribe _ _ _ hx => exact (hne hx (by decide)).elim
      | unsubscribe _ _ hx => exact (hne hx (by decide)).elim
    · exact absurd ⟨_, .commit tx l hopen hcm.1 hcm.2 hl⟩ h1
  obtain ⟨z, hz⟩ := hpre
  refine ⟨Server.Spec.messages c (0 + (Server.Spec.messages c 0 st.done).length) l, ?_, ?_, ?_⟩
  · rw [← hz, Server.messages_append, Server.messages_append]
    exact ⟨_, _, rfl⟩
  · rw [Server.messages_frames, hlf, List.map_map]; rfl
  · intro m hm
    refine Server.has_run h hc hk ?_
    rw [← hz, Server.messages_append, Server.messages_append]
    simp only [List.mem_append]
    exact Or.inl (Or.inr hm)


/-! ## A run: a message, a transaction with another message in between, and the receipts -/

namespace ConfirmedEx

def hello : Frame := Server.sampleConnect
def welcome : Frame := ⟨b!"CONNECTED", [(b!"version", b!"1.1"), (b!"server", b!"stompd/x.y.z"), (b!"heart-beat", b!"0,0")], []⟩
def plainSend : Frame := ⟨b!"SEND", [(b!"content-length", b!"1"), (b!"destination", b!"/queue/a")], [1]⟩
def begin7 : Frame := ⟨b!"BEGIN", [(b!"transaction", b!"7")], []⟩
def send7 : Frame := ⟨b!"SEND", [(b!"destination", b!"/topic/b"), (b!"transaction", b!"7")], [2]⟩
def receiptedSend : Frame := ⟨b!"SEND", [(b!"content-length", b!"1"), (b!"destination", b!"/queue/a"), (b!"receipt", b!"1")], [3]⟩
def commit7 : Frame := ⟨b!"COMMIT", [(b!"transaction", b!"7"), (b!"receipt", b!"9")], []⟩
def receiptOf (v : Bytes) : Frame := ⟨b!"RECEIPT", [(b!"receipt-id", v)], []⟩

def ask (t : Nat) (c : Client.Call) : List Client.Ev := [.call c, .thread t, .thread t, .loopWrite true []]
def answer (v : Bytes) : List Client.Ev := [.net (some (receiptOf v)), .loopRead [], .deliver true]
def theSend : Client.Call := .send b!"/queue/a" [] [3] [.receipt]
def program : List Client.Ev :=
  ask 0 (.send b!"/queue/a" [] [1] []) ++ ask 1 (.frame begin7) ++ ask 2 (.frame send7) ++
  ask 3 theSend ++ answer b!"1" ++ ask 4 (.frame commit7) ++ answer b!"9"
def receive (f : Frame) : List Server.Sys.Ev := [.conn 0 (.recv f), .conn 0 (.frame true true)]
def server : List Server.Sys.Ev :=
  [.accept] ++ receive hello ++ [.flush 0, .proc] ++ receive plainSend ++ [.flush 0, .proc] ++ receive begin7 ++ receive send7 ++ receive receiptedSend ++ [.flush 0, .proc] ++
  receive commit7 ++ [.flush 0]

def program' : Client.Sys := ((Client.Sys.init 0).run Client.Ex.cfg program).getD (Client.Sys.init 0)
def peers (_ : Nat) : Spec.Peer := ⟨Client.Ex.cfg, 0, program, program', hello, welcome⟩
def serverState : Server.Sys := (Server.Sys.init.run Server.sampleCfg server).getD Server.Sys.init
def conn0 : Server.Conn := serverState.conns[0]?.getD (.init 0)

theorem wf_of (f : Frame) (h : readFrame (writeFrame (some f)) = .frame f []) : Spec.WellFormed f := (C06_sound _ _ _ h).1

theorem len : serverState.conns.length = 1 := by decide +kernel

theorem ok : ∀ c, c < serverState.conns.length → (peers c).Ok := by
  intro c _
  show (peers 0).Ok
  refine ⟨by decide +kernel, ?_, by decide +kernel, wf_of _ (by decide +kernel)⟩
  intro x hx
  simp only [peers, program, ask, answer, List.cons_append, List.nil_append, List.mem_cons, Client.Ev.call.injEq, List.not_mem_nil, or_false, reduceCtorEq, false_or] at hx
  rcases hx with rfl | rfl | rfl | rfl | rfl
  · exact ⟨by simp, by decide, by simp⟩
  · exact wf_of _ (by decide +kernel)
  · exact wf_of _ (by decide +kernel)
  · exact ⟨by simp, by decide, by simp⟩
  · exact wf_of _ (by decide +kernel)

theorem upward : ∀ c, c < serverState.conns.length → Spec.Carries (some (peers c).hello :: Client.Spec.stream (peers c).state) (Server.Spec.receivedBy c server) := by
  intro c hc
  rw [len] at hc
  match c, hc with
  | 0, _ => exact EndToEndEx.carries_all (by decide +kernel)

theorem downward : Spec.Carries (conn0.out.map (·.frame)) ((peers 0).welcome :: Spec.framesRead (peers 0).state) := EndToEndEx.carries_all (by decide +kernel)

end ConfirmedEx

open ConfirmedEx in
example : Server.Sys.init.run Server.sampleCfg server = some serverState ∧ serverState.crashed = false ∧ serverState.conns[0]? = some conn0 ∧ .panic ∉ conn0.outbox ∧
    (∀ c, c < serverState.conns.length → (peers c).Ok) ∧
    (∀ c, c < serverState.conns.length → Spec.Carries (some (peers c).hello :: Client.Spec.stream (peers c).state) (Server.Spec.receivedBy c server)) ∧
    Spec.Carries (conn0.out.map (·.frame)) ((peers 0).welcome :: Spec.framesRead (peers 0).state) ∧ Client.Spec.Distinct (peers 0).state :=
  ⟨by decide +kernel, by decide +kernel, by decide +kernel, by decide +kernel, ok, upward, downward, Client.distinct_of (by decide +kernel)⟩
-- the Send with a receipt
open ConfirmedEx in
example : Client.Spec.Returned (peers 0).state 3 theSend .ok ∧ Client.Spec.Reports theSend ∧
    (peers 0).state.trace = (peers 0).state.trace.take 12 ++ .accepted 3 ⟨receiptedSend, some 0⟩ :: (peers 0).state.trace.drop 13 ∧
    receiptedSend.header.contains Hdr.receipt = some b!"1" ∧ Spec.sentIn ((peers 0).state.trace.take 12) = [plainSend, begin7, send7] :=
  ⟨⟨⟨theSend, .ret .ok, .none⟩, by decide +kernel, rfl, rfl⟩, trivial, by decide +kernel, by decide +kernel, by decide +kernel⟩
-- the COMMIT with a receipt
open ConfirmedEx in
example : Client.Spec.Returned (peers 0).state 4 (.frame commit7) .ok ∧ Client.Spec.Reports (.frame commit7) ∧
    (peers 0).state.trace = (peers 0).state.trace.take 18 ++ .accepted 4 ⟨commit7, some 1⟩ :: (peers 0).state.trace.drop 19 ∧
    commit7.header.contains Hdr.receipt = some b!"9" ∧ commit7.command = b!"COMMIT" ∧ firstValue commit7.header b!"transaction" = some b!"7" ∧
    Spec.sentIn ((peers 0).state.trace.take 18) = [plainSend] ++ begin7 :: [send7, receiptedSend] ∧ begin7.command = b!"BEGIN" ∧
    firstValue begin7.header b!"transaction" = some b!"7" ∧ ∀ g ∈ [send7, receiptedSend], Spec.bounds b!"7" g = false :=
  ⟨⟨⟨.frame commit7, .ret .ok, .none⟩, by decide +kernel, rfl, rfl⟩, trivial, by decide +kernel, by decide +kernel, rfl, by decide +kernel, by decide +kernel, rfl, by decide +kernel, by decide +kernel⟩
-- the messages, in the order in which they took effect
open ConfirmedEx in
example : (Server.Spec.messages 0 0 conn0.effective).map (fun m => (m.tag, m.frame.body)) = [(⟨0, 0⟩, [1]), (⟨0, 1⟩, [3]), (⟨0, 2⟩, [2])] ∧
    ([send7, receiptedSend].filter (Spec.within b!"7")).map Spec.asMessage = [⟨b!"MESSAGE", [(b!"destination", b!"/topic/b")], [2]⟩] ∧
    Server.Spec.stored serverState b!"/queue/a" = [⟨0, 0⟩, ⟨0, 1⟩] ∧ Server.Spec.pendingRequests serverState = [⟨0, 2⟩] := by decide +kernel

end Stomp
