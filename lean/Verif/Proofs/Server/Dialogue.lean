import Verif.Spec.Dialogue
import Verif.Props.Server.Session
/-! # The answers of the server: reasons of refusal, and the whole conversation -/
namespace Stomp.Server
open Stomp

theorem raise_granted (x : Nat) (m : Int) : Conn.raise x (asMilliseconds m maxHeartBeat) = Spec.granted m x := by
  unfold Conn.raise asMilliseconds maxHeartBeat Spec.granted millisecond
  rw [if_neg (show ¬((999999999 : Int) < 0) by decide)]
  dsimp only
  by_cases hx : x = 0
  · subst hx; simp
  · rw [if_neg hx]
    have hx' : 0 < x := by omega
    have hm : ∀ a b : Nat, Nat.max a b = max a b := fun _ _ => rfl
    have hn : ∀ a b : Nat, Nat.min a b = min a b := fun _ _ => rfl
    rw [hm, hn]
    by_cases h0 : 0 ≤ m
    · rw [Int.tdiv_eq_ediv_of_nonneg h0]
      split <;> split <;> omega
    · have h1 : m.tdiv 1000000 ≤ 0 := by
        rw [show m = -(-m) by omega, Int.neg_tdiv, Int.tdiv_eq_ediv_of_nonneg (by omega)]; omega
      have h2 : (m / 1000000).toNat = 0 := by omega
      rw [h2]
      split <;> split <;> omega

/-- The writes of the receipt for a frame. -/
def receiptWrites (f : Frame) : List Wr := (Spec.receipts f).map (fun g => ⟨some g, none⟩)

theorem Rcpt.writes {c : Conn} {ok : Bool} {f : Frame} {c1 : Conn} {f1 : Frame} (h : Rcpt c ok f c1 f1 true) :
    c1.out = c.out ++ receiptWrites f := by
  unfold receiptWrites Spec.receipts Spec.hdr
  cases h with
  | none h =>
    rw [contains_eq] at h
    rw [show b!"receipt" = Hdr.receipt from rfl, h]; simp
  | sent r h =>
    rw [contains_eq] at h
    rw [show b!"receipt" = Hdr.receipt from rfl, h]; rfl

theorem ackId_why {f : Frame} {e : Err} (h : Conn.ackId f = .error e) :
    (e = .missingHeader Hdr.messageId ∧ ¬∃ s, Spec.naming f s) ∨ (∃ s, e = .parse s ∧ Spec.naming f s ∧ ¬∃ n, Spec.names f n) := by
  have hno : ¬∃ n, Spec.names f n := by
    rintro ⟨n, hn⟩
    rw [(ackId_ok f n).2 hn] at h; cases h
  unfold Conn.ackId at h
  rw [contains_eq, contains_eq] at h
  cases h1 : Stomp.Spec.firstValue f.header Hdr.ack with
  | some a =>
    rw [h1] at h
    dsimp only at h
    split at h
    · injection h with h
      exact Or.inr ⟨a, h.symm, Or.inl h1, hno⟩
    · cases h
  | none =>
    rw [h1] at h
    dsimp only at h
    cases h2 : Stomp.Spec.firstValue f.header Hdr.messageId with
    | none =>
      rw [h2] at h
      injection h with h
      refine Or.inl ⟨h.symm, ?_⟩
      rintro ⟨s, hs | ⟨_, hs⟩⟩
      · rw [show Spec.hdr f b!"ack" = none from h1] at hs; cases hs
      · rw [show Spec.hdr f b!"message-id" = none from h2] at hs; cases hs
    | some a =>
      rw [h2] at h
      dsimp only at h
      split at h
      · injection h with h
        exact Or.inr ⟨a, h.symm, Or.inr ⟨h1, h2⟩, hno⟩
      · cases h

/-- What the error of a handler says, and what was written before it. -/
def Why (cfg : Config) (st : Spec.St) (c : Conn) (f : Frame) (c' : Conn) (f' : Frame) (e : Err) : Prop :=
  c'.wfail = true ∨ (Spec.Refused cfg.auth cfg.parseErr st f false (e.text cfg) ∧ c'.out = c.out ∧ f' = f) ∨
  (Spec.Refused cfg.auth cfg.parseErr st f true (e.text cfg) ∧ c'.out = c.out ++ receiptWrites f ∧ f'.header.contains Hdr.receipt = none)

/-- The part common to ACK, NACK and SEND inside a transaction. -/
theorem why_add {cfg : Config} {st : Spec.St} {c c1 : Conn} {ok : Bool} {f f1 : Frame} {t : Bytes} (ha : Agrees c st) (ho : st.opened = true)
    (hr : Rcpt c ok f c1 f1 true) (htr : Spec.transactional f) (ht : f1.header.contains Hdr.transaction = some t)
    (hadd : c1.tx.add t f1 = none) : Why cfg st c f c1 f1 .txUnknown := by
  right; right
  rw [hr.contains _ (by decide), contains_eq] at ht
  refine ⟨Spec.Refused.unknownTx ho (Or.inr (Or.inr htr)) t ht ?_, hr.writes, hr.noReceipt⟩
  rw [← ha.tx]
  unfold TxStore.add at hadd
  rw [hr.tx] at hadd
  split at hadd
  · cases hadd
  · assumption

theorem not_client {f : Frame} (h1 : ¬(f.command = Cmd.connect ∨ f.command = Cmd.stomp)) (h0 : f.command ≠ Cmd.commit) (h2 : f.command ≠ Cmd.disconnect)
    (h3 : f.command ≠ Cmd.begin_) (h4 : f.command ≠ Cmd.abort) (h5 : f.command ≠ Cmd.send) (h6 : f.command ≠ Cmd.subscribe)
    (h7 : f.command ≠ Cmd.unsubscribe) (h8 : f.command ≠ Cmd.ack) (h9 : f.command ≠ Cmd.nack)
    (h10 : ¬(f.command = Cmd.message ∨ f.command = Cmd.receipt ∨ f.command = Cmd.error)) :
    f.command ∉ Spec.clientCommands ++ Spec.serverCommands := by
  simp only [Spec.clientCommands, Spec.serverCommands, List.mem_append, List.mem_cons, List.not_mem_nil, or_false, not_or] at *
  exact ⟨⟨h1.1, h1.2, h5, h6, h7, h8, h9, h3, h0, h4, h2⟩, h10⟩

theorem why_basic {cfg : Config} {st : Spec.St} {c c' : Conn} {ok : Bool} {f f' : Frame} {e : Err} (ha : Agrees c st) (ho : st.opened = true)
    (hcm : f.command ≠ Cmd.commit) (h : c.connectedBasic ok f = (c', f', .err e)) : Why cfg st c f c' f' e := by
  have hdr0 : ∀ k, f.header.contains k = none → Spec.hdr f k = none := fun k h => by rw [contains_eq] at h; exact h
  have hdr1 : ∀ {k v}, f.header.contains k = some v → Spec.hdr f k = some v := fun h => by rw [contains_eq] at h; exact h
  have wf : ∀ {c1 : Conn} {f1 : Frame}, Rcpt c ok f c1 f1 false → c1.wfail = true := by intro c1 f1 hr; cases hr; rfl
  unfold Conn.connectedBasic at h
  split at h
  · rename_i hc
    injection h with h1 h2; injection h2 with h2 h3; injection h3 with h3
    subst h1 h2 h3
    exact Or.inr (Or.inl ⟨Spec.Refused.unexpected ho (hc.elim Or.inl (fun h => Or.inr (Or.inl h))), rfl, rfl⟩)
  rename_i hc1
  split at h
  · unfold Conn.handleDisconnect at h
    injection h with _ h; injection h with _ h; cases h
  rename_i hc2
  split at h
  · rename_i hc
    unfold Conn.handleBegin at h
    split at h
    · rename_i ht
      injection h with h1 h2; injection h2 with h2 h3; injection h3 with h3
      subst h1 h2 h3
      exact Or.inr (Or.inl ⟨Spec.Refused.noTransaction ho (Or.inl hc) (hdr0 _ ht), rfl, rfl⟩)
    · rename_i t ht
      have hr := rcpt c ok f
      generalize c.sendReceipt ok f = x at hr h
      obtain ⟨c1, f1, k⟩ := x
      dsimp only at hr h
      cases k with
      | false =>
        injection h with h1 h2
        subst h1
        exact Or.inl (wf hr)
      | true =>
        simp only [Bool.not_true, Bool.false_eq_true, if_false, TxStore.begin, hr.tx] at h
        split at h
        · rename_i hx
          injection h with h1 h2; injection h2 with h2 h3; injection h3 with h3
          subst h1 h2 h3
          split at hx
          · rename_i l hl
            exact Or.inr (Or.inr ⟨Spec.Refused.inProgress ho hc t (hdr1 ht) l ((ha.tx t).symm.trans hl), hr.writes, hr.noReceipt⟩)
          · cases hx
        · injection h with _ h; injection h with _ h; cases h
  rename_i hc3
  split at h
  · rename_i hc
    unfold Conn.handleAbort at h
    split at h
    · rename_i ht
      injection h with h1 h2; injection h2 with h2 h3; injection h3 with h3
      subst h1 h2 h3
      exact Or.inr (Or.inl ⟨Spec.Refused.noTransaction ho (Or.inr (Or.inr hc)) (hdr0 _ ht), rfl, rfl⟩)
    · rename_i t ht
      have hr := rcpt c ok f
      generalize c.sendReceipt ok f = x at hr h
      obtain ⟨c1, f1, k⟩ := x
      dsimp only at hr h
      cases k with
      | false =>
        injection h with h1 h2
        subst h1
        exact Or.inl (wf hr)
      | true =>
        simp only [Bool.not_true, Bool.false_eq_true, if_false, TxStore.abort, hr.tx] at h
        split at h
        · rename_i hx
          injection h with h1 h2; injection h2 with h2 h3; injection h3 with h3
          subst h1 h2 h3
          split at hx
          · cases hx
          · rename_i hl
            exact Or.inr (Or.inr ⟨Spec.Refused.unknownTx ho (Or.inr (Or.inl hc)) t (hdr1 ht) ((ha.tx t).symm.trans hl), hr.writes, hr.noReceipt⟩)
        · injection h with _ h; injection h with _ h; cases h
  rename_i hc4
  split at h
  · rename_i hc
    unfold Conn.handleSend at h
    have hr := rcpt c ok f
    generalize c.sendReceipt ok f = x at hr h
    obtain ⟨c1, f1, k⟩ := x
    dsimp only at hr h
    cases k with
    | false =>
      injection h with h1 h2
      subst h1
      exact Or.inl (wf hr)
    | true =>
      simp only [Bool.not_true, Bool.false_eq_true, if_false] at h
      split at h
      · rename_i t ht
        split at h
        · rename_i hadd
          injection h with h1 h2; injection h2 with h2 h3; injection h3 with h3
          subst h1 h2 h3
          exact why_add ha ho hr (Or.inl hc) ht hadd
        · injection h with _ h; injection h with _ h; cases h
      · injection h with _ h; injection h with _ h; cases h
  rename_i hc5
  split at h
  · rename_i hc
    unfold Conn.handleSubscribe at h
    split at h
    · rename_i hi
      injection h with h1 h2; injection h2 with h2 h3; injection h3 with h3
      subst h1 h2 h3
      exact Or.inr (Or.inl ⟨Spec.Refused.noId ho (Or.inl hc) (hdr0 _ hi), rfl, rfl⟩)
    · rename_i id hi
      split at h
      · rename_i hd
        injection h with h1 h2; injection h2 with h2 h3; injection h3 with h3
        subst h1 h2 h3
        exact Or.inr (Or.inl ⟨Spec.Refused.noDestination ho hc id (hdr1 hi) (hdr0 _ hd), rfl, rfl⟩)
      · rename_i dest hd
        dsimp only at h
        split at h
        · rename_i hs
          injection h with h1 h2; injection h2 with h2 h3; injection h3 with h3
          subst h1 h2 h3
          exact Or.inr (Or.inl ⟨Spec.Refused.exists_ ho hc id dest (hdr1 hi) (hdr1 hd) (by rw [← ha.subs, hs]; rfl), rfl, rfl⟩)
        · injection h with _ h; injection h with _ h; cases h
  rename_i hc6
  split at h
  · rename_i hc
    unfold Conn.handleUnsubscribe at h
    split at h
    · rename_i hi
      injection h with h1 h2; injection h2 with h2 h3; injection h3 with h3
      subst h1 h2 h3
      exact Or.inr (Or.inl ⟨Spec.Refused.noId ho (Or.inr hc) (hdr0 _ hi), rfl, rfl⟩)
    · rename_i id hi
      split at h
      · rename_i hs
        injection h with h1 h2; injection h2 with h2 h3; injection h3 with h3
        subst h1 h2 h3
        exact Or.inr (Or.inl ⟨Spec.Refused.notFound ho hc id (hdr1 hi) (by rw [← ha.subs, hs]; rfl), rfl, rfl⟩)
      · injection h with _ h; injection h with _ h; cases h
  rename_i hc7
  split at h
  · rename_i hc
    unfold Conn.handleAck at h
    split at h
    · rename_i e' hid
      injection h with h1 h2; injection h2 with h2 h3; injection h3 with h3
      subst h1 h2 h3
      rcases ackId_why hid with ⟨rfl, hn⟩ | ⟨s, rfl, hs, hn⟩
      · exact Or.inr (Or.inl ⟨Spec.Refused.noMessage ho (Or.inl hc) hn, rfl, rfl⟩)
      · exact Or.inr (Or.inl ⟨Spec.Refused.noNumber ho (Or.inl hc) s hs hn, rfl, rfl⟩)
    · rename_i n hid
      have hr := rcpt c ok f
      generalize c.sendReceipt ok f = x at hr h
      obtain ⟨c1, f1, k⟩ := x
      dsimp only at hr h
      cases k with
      | false =>
        injection h with h1 h2
        subst h1
        exact Or.inl (wf hr)
      | true =>
        simp only [Bool.not_true, Bool.false_eq_true, if_false] at h
        split at h
        · rename_i t ht
          split at h
          · rename_i hadd
            injection h with h1 h2; injection h2 with h2 h3; injection h3 with h3
            subst h1 h2 h3
            exact why_add ha ho hr (Or.inr ⟨Or.inl hc, n, (ackId_ok f n).1 hid⟩) ht hadd
          · injection h with _ h; injection h with _ h; cases h
        · injection h with _ h; injection h with _ h
          unfold Conn.applyAck at h
          dsimp only at h
          split at h <;> cases h
  rename_i hc8
  split at h
  · rename_i hc
    unfold Conn.handleNack at h
    split at h
    · rename_i e' hid
      injection h with h1 h2; injection h2 with h2 h3; injection h3 with h3
      subst h1 h2 h3
      rcases ackId_why hid with ⟨rfl, hn⟩ | ⟨s, rfl, hs, hn⟩
      · exact Or.inr (Or.inl ⟨Spec.Refused.noMessage ho (Or.inr hc) hn, rfl, rfl⟩)
      · exact Or.inr (Or.inl ⟨Spec.Refused.noNumber ho (Or.inr hc) s hs hn, rfl, rfl⟩)
    · rename_i n hid
      have hr := rcpt c ok f
      generalize c.sendReceipt ok f = x at hr h
      obtain ⟨c1, f1, k⟩ := x
      dsimp only at hr h
      cases k with
      | false =>
        injection h with h1 h2
        subst h1
        exact Or.inl (wf hr)
      | true =>
        simp only [Bool.not_true, Bool.false_eq_true, if_false] at h
        split at h
        · rename_i t ht
          split at h
          · rename_i hadd
            injection h with h1 h2; injection h2 with h2 h3; injection h3 with h3
            subst h1 h2 h3
            exact why_add ha ho hr (Or.inr ⟨Or.inr hc, n, (ackId_ok f n).1 hid⟩) ht hadd
          · injection h with _ h; injection h with _ h; cases h
        · injection h with _ h; injection h with _ h; cases h
  rename_i hc9
  split at h
  · rename_i hc
    injection h with h1 h2; injection h2 with h2 h3; injection h3 with h3
    subst h1 h2 h3
    refine Or.inr (Or.inl ⟨Spec.Refused.unexpected ho (Or.inr (Or.inr ?_)), rfl, rfl⟩)
    simp only [Spec.serverCommands, List.mem_cons, List.not_mem_nil, or_false]
    exact hc
  rename_i hc10
  injection h with h1 h2; injection h2 with h2 h3; injection h3 with h3
  subst h1 h2 h3
  exact Or.inr (Or.inl ⟨Spec.Refused.unknown ho (not_client hc1 hcm hc2 hc3 hc4 hc5 hc6 hc7 hc8 hc9 hc10), rfl, rfl⟩)

theorem why_connected {cfg : Config} {st : Spec.St} {c c' : Conn} {ok : Bool} {f f' : Frame} {e : Err} (ha : Agrees c st) (hc : c.connected = true)
    (htx : TxOk c) (h : c.stateFunc cfg ok f = (c', f', .err e)) : Why cfg st c f c' f' e := by
  have ho : st.opened = true := ha.opened.symm.trans hc
  by_cases hcm : f.command = Cmd.commit
  · have hh := handled cfg c ok f hc htx
    rw [h] at hh
    dsimp only at hh
    cases hh with
    | basic hc _ => exact absurd hcm hc
    | commitMissing hc ht =>
      rw [contains_eq] at ht
      exact Or.inr (Or.inl ⟨Spec.Refused.noTransaction ho (Or.inr (Or.inl hc)) ht, rfl, rfl⟩)
    | commitWrite hc t ht hr => left; cases hr; rfl
    | commitUnknown hc t ht hn hr =>
      rw [contains_eq] at ht
      exact Or.inr (Or.inr ⟨Spec.Refused.unknownTx ho (Or.inl hc) t ht ((ha.tx t).symm.trans hn), hr.writes, hr.noReceipt⟩)
    | commit hc t ht l hl hr hcd => rcases hcd.res with h | h <;> cases h
  · unfold Conn.stateFunc at h
    rw [if_neg (by simp [hc]), if_neg hcm] at h
    exact why_basic ha ho hcm h

theorem offers_iff {f : Frame} {av v : Bytes} (h : Spec.hdr f b!"accept-version" = some av) : Spec.offers f v ↔ v ∈ splitOn 44 av := by
  constructor
  · rintro ⟨av', h1, h2⟩
    rw [h] at h1; injection h1 with h1; subst h1; exact h2
  · intro h2; exact ⟨av, h, h2⟩

theorem offers_none {f : Frame} {v : Bytes} (h : Spec.hdr f b!"accept-version" = none) : ¬Spec.offers f v := by
  rintro ⟨av', h1, h2⟩
  rw [h] at h1; cases h1

theorem why_connecting {cfg : Config} {st : Spec.St} {c c' : Conn} {ok : Bool} {f f' : Frame} {e : Err} (ho : st.opened = false)
    (h : c.connecting cfg ok f = (c', f', .err e)) :
    Spec.Refused cfg.auth cfg.parseErr st f false (e.text cfg) ∧ c'.out = c.out ∧ f' = f := by
  unfold Conn.connecting at h
  split at h
  · rename_i hc
    unfold Conn.handleConnect at h
    rw [contains_eq] at h
    split at h
    · rename_i r hr
      injection h with h1 h2; injection h2 with h2 h3; injection h3 with h3
      subst h1 h2 h3
      exact ⟨Spec.Refused.connectReceipt ho hc r hr, rfl, rfl⟩
    · rename_i hr
      split at h
      · rename_i hau
        injection h with h1 h2; injection h2 with h2 h3; injection h3 with h3
        subst h1 h2 h3
        rw [get_eq, get_eq] at hau
        exact ⟨Spec.Refused.authentication ho hc hr (by have := hau; simp only [Bool.not_eq_true'] at this; exact this), rfl, rfl⟩
      · rename_i hau
        rw [get_eq, get_eq] at hau
        have hk : Spec.knocks cfg.auth f := ⟨hc, hr, by have := hau; simp only [Bool.not_eq_true', Bool.not_eq_false] at this; exact this⟩
        cases hav : Spec.hdr f b!"accept-version" with
        | none =>
          rw [C31_absent f hav] at h
          rcases hc with hc | hc
          · rw [if_pos (show f.command = b!"CONNECT" from hc)] at h
            dsimp only at h
            rw [if_pos (show b!"1.0" = Client.V10 from rfl)] at h
            injection h with h1 h2; injection h2 with h2 h3; injection h3 with h3
            subst h1 h2 h3
            exact ⟨Spec.Refused.tooOld ho hk (offers_none hav) (offers_none hav) (Or.inr ⟨hav, hc⟩), rfl, rfl⟩
          · rw [if_neg (by rw [hc]; decide), if_pos (show f.command = b!"STOMP" from hc)] at h
            injection h with h1 h2; injection h2 with h2 h3; injection h3 with h3
            subst h1 h2 h3
            exact ⟨Spec.Refused.noVersion ho hk hc hav, rfl, rfl⟩
        | some av =>
          rw [C31_highest f av hc hav] at h
          have hhb : ∀ (c0 : Conn), (Spec.offers f b!"1.1" ∨ Spec.offers f b!"1.2") → c0.out = c.out →
              (match getHeartBeat f with
                | .error .invalidOperationForFrame => (c0, f, Res.err .invalidOperationForFrame)
                | .error .invalidHeartBeat => (c0, f, Res.err .invalidHeartBeat)
                | .ok (cx, cy) =>
                  let min := asMilliseconds cfg.heartBeat maxHeartBeat
                  let cx := Conn.raise cx min
                  let cy := Conn.raise cy min
                  let c := { c0 with writeTimeout := cy }
                  let (c, _) := c.write ok (some (Frame.new Cmd.connected
                    [(Hdr.version, c0.version), (Hdr.server, b!"stompd/x.y.z"), (Hdr.heartBeat, fmtUint cy ++ b!"," ++ fmtUint cx)]))
                  (({ c with connected := true } : Conn).emit [.connected c.me], f, Res.ok)) = (c', f', .err e) →
              Spec.Refused cfg.auth cfg.parseErr st f false (e.text cfg) ∧ c'.out = c.out ∧ f' = f := by
            intro c0 hv hc0 h
            have hno : (∀ p, getHeartBeat f ≠ .ok p) → ¬∃ x y, Spec.beats f x y := by
              rintro hn ⟨x, y, hb⟩
              exact hn (x, y) ((C10_server_parse f hc x y).2 hb)
            cases hg : getHeartBeat f with
            | ok p =>
              rw [hg] at h
              injection h with _ h; injection h with _ h; cases h
            | error e' =>
              rw [hg] at h
              have hno' := hno (by rw [hg]; intro p hp; cases hp)
              cases e' with
              | invalidOperationForFrame =>
                exfalso
                unfold getHeartBeat at hg
                rw [if_neg (fun h => hc.elim h.1 h.2.1)] at hg
                revert hg
                repeat' split
                all_goals (intro hg; cases hg)
              | invalidHeartBeat =>
                injection h with h1 h2; injection h2 with h2 h3; injection h3 with h3
                subst h1 h2 h3
                exact ⟨Spec.Refused.heartBeat ho hk hv hno', hc0, rfl⟩
          unfold Spec.highest at h
          by_cases h12 : b!"1.2" ∈ splitOn 44 av
          · rw [if_pos h12] at h
            dsimp only at h
            rw [if_neg (show ¬b!"1.2" = Client.V10 by decide)] at h
            exact hhb { c with version := b!"1.2" } (Or.inr ((offers_iff hav).2 h12)) rfl h
          · rw [if_neg h12] at h
            by_cases h11 : b!"1.1" ∈ splitOn 44 av
            · rw [if_pos h11] at h
              dsimp only at h
              rw [if_neg (show ¬b!"1.1" = Client.V10 by decide)] at h
              exact hhb { c with version := b!"1.1" } (Or.inl ((offers_iff hav).2 h11)) rfl h
            · rw [if_neg h11] at h
              by_cases h10 : b!"1.0" ∈ splitOn 44 av
              · rw [if_pos h10] at h
                dsimp only at h
                rw [if_pos (show b!"1.0" = Client.V10 from rfl)] at h
                injection h with h1 h2; injection h2 with h2 h3; injection h3 with h3
                subst h1 h2 h3
                exact ⟨Spec.Refused.tooOld ho hk (fun h => h11 ((offers_iff hav).1 h)) (fun h => h12 ((offers_iff hav).1 h)) (Or.inl ((offers_iff hav).2 h10)), rfl, rfl⟩
              · rw [if_neg h10] at h
                injection h with h1 h2; injection h2 with h2 h3; injection h3 with h3
                subst h1 h2 h3
                exact ⟨Spec.Refused.incompatible ho hk av hav ⟨fun h => h10 ((offers_iff hav).1 h), fun h => h11 ((offers_iff hav).1 h), fun h => h12 ((offers_iff hav).1 h)⟩, rfl, rfl⟩
  · rename_i hc
    injection h with h1 h2; injection h2 with h2 h3; injection h3 with h3
    subst h1 h2 h3
    simp only [not_or] at hc
    exact ⟨Spec.Refused.notConnect ho hc, rfl, rfl⟩

theorem Committed.out {a : Conn} {l : List Frame} {b : Conn} {r : Res} (h : Committed a l b r) : b.out = a.out := by
  induction h with
  | nil => rfl
  | cons h _ ih => exact ih.trans h.out.1
  | panic h => exact h.out.1

theorem Committed.wfail {a : Conn} {l : List Frame} {b : Conn} {r : Res} (h : Committed a l b r) : b.wfail = a.wfail := by
  induction h with
  | nil => rfl
  | cons h _ ih => exact ih.trans h.out.2
  | panic h => exact h.out.2

/-- A frame that is not refused is answered. -/
theorem handled_says {auth : Bytes → Bytes → Bool} {min : Int} {st : Spec.St} {c : Conn} {ok : Bool} {f : Frame} {c' : Conn} {f' : Frame} {r : Res}
    (h : Handled c ok f c' f' r) (ho : st.opened = true) (hr : ∀ e, r ≠ .err e) :
    c'.wfail = true ∨ ∃ a, Spec.Answer auth min st f a ∧ c'.out = c.out ++ a.map (fun g => ⟨some g, none⟩) := by
  have lift : ∀ {c1 : Conn} {f1 : Frame} {k : Bool} (c2 : Conn), Rcpt c ok f c1 f1 k → c2.out = c1.out → c2.wfail = c1.wfail →
      (f.command ≠ b!"SUBSCRIBE" ∧ f.command ≠ b!"UNSUBSCRIBE") →
      c2.wfail = true ∨ ∃ a, Spec.Answer auth min st f a ∧ c2.out = c.out ++ a.map (fun g => ⟨some g, none⟩) := by
    intro c1 f1 k c2 hr h1 h2 hc
    cases k with
    | false => left; rw [h2]; cases hr; rfl
    | true => right; exact ⟨_, Spec.Answer.receipt ho hc, h1.trans hr.writes⟩
  have ne : ∀ {x : Bytes}, f.command = x → x ≠ b!"SUBSCRIBE" → x ≠ b!"UNSUBSCRIBE" → f.command ≠ b!"SUBSCRIBE" ∧ f.command ≠ b!"UNSUBSCRIBE" := by
    intro x h h1 h2; rw [h]; exact ⟨h1, h2⟩
  cases h with
  | commitMissing => exact absurd rfl (hr _)
  | commitWrite => exact absurd rfl (hr _)
  | commitUnknown => exact absurd rfl (hr _)
  | @commit c1 c2 _ _ hc _ _ _ _ hrc hcm =>
    exact lift _ hrc hcm.out hcm.wfail (ne hc (by decide) (by decide))
  | basic hnc hb =>
    cases hb with
    | unexpected => exact absurd rfl (hr _)
    | disconnect hc hrc => exact lift _ hrc rfl rfl (ne hc (by decide) (by decide))
    | refused => exact absurd rfl (hr _)
    | writeFail => exact absurd rfl (hr _)
    | txErr => exact absurd rfl (hr _)
    | begin_ _ _ hc _ hrc => exact lift _ hrc rfl rfl (ne hc (by decide) (by decide))
    | abort _ _ hc _ _ hrc => exact lift _ hrc rfl rfl (ne hc (by decide) (by decide))
    | store _ _ hc _ _ _ hrc =>
      refine lift _ hrc rfl rfl ?_
      rcases hc with hc | hc | hc <;> exact ne hc (by decide) (by decide)
    | subscribe hc => exact Or.inr ⟨[], Spec.Answer.silence ho (Or.inl hc), (List.append_nil _).symm⟩
    | unsubscribe hc => exact Or.inr ⟨[], Spec.Answer.silence ho (Or.inr hc), (List.append_nil _).symm⟩
    | send hc _ hrc => exact lift _ hrc rfl rfl (ne hc (by decide) (by decide))
    | ack hc _ _ _ hrc => exact lift _ hrc rfl rfl (ne hc (by decide) (by decide))
    | nack hc _ _ _ hrc => exact lift _ hrc rfl rfl (ne hc (by decide) (by decide))

theorem Handled.mute {c : Conn} {ok : Bool} {f : Frame} {c' : Conn} {f' : Frame} {r : Res} (h : Handled c ok f c' f' r) (hw : c.wfail = true) :
    c'.out = c.out ∧ c'.wfail = true := by
  have lift : ∀ {c1 : Conn} {f1 : Frame} {k : Bool} (c2 : Conn), Rcpt c ok f c1 f1 k → c2.out = c1.out → c2.wfail = c1.wfail →
      c2.out = c.out ∧ c2.wfail = true := by
    intro c1 f1 k c2 hr h1 h2
    cases hr with
    | none => exact ⟨h1, h2.trans hw⟩
    | sent _ _ _ h => rw [hw] at h; cases h
    | failed => exact ⟨h1, h2⟩
  cases h with
  | commitMissing => exact ⟨rfl, hw⟩
  | commitWrite _ _ _ hr => exact lift _ hr rfl rfl
  | commitUnknown _ _ _ _ hr => exact lift _ hr rfl rfl
  | commit _ _ _ _ _ hr hcm => exact lift _ hr hcm.out hcm.wfail
  | basic hnc hb =>
    cases hb with
    | unexpected => exact ⟨rfl, hw⟩
    | disconnect hc hr => exact lift _ hr rfl rfl
    | refused => exact ⟨rfl, hw⟩
    | writeFail hc hr => exact lift _ hr rfl rfl
    | txErr _ _ _ _ _ hr => exact lift _ hr rfl rfl
    | begin_ _ _ _ _ hr => exact lift _ hr rfl rfl
    | abort _ _ _ _ _ hr => exact lift _ hr rfl rfl
    | store _ _ _ _ _ _ hr => exact lift _ hr rfl rfl
    | subscribe hc => exact ⟨rfl, hw⟩
    | unsubscribe hc => exact ⟨rfl, hw⟩
    | send _ _ hr => exact lift _ hr rfl rfl
    | ack _ _ _ _ hr => exact lift _ hr rfl rfl
    | nack _ _ _ _ hr => exact lift _ hr rfl rfl

theorem panic_step {auth : Bytes → Bytes → Bool} {st : Spec.St} {c : Conn} {ok : Bool} {f : Frame} {c' : Conn} {f' : Frame}
    (h : Handled c ok f c' f' .panic) (ha : Agrees c st) (ho : st.opened = true) : ∃ st', Spec.Step auth st f st' := by
  have hd : ∀ {k v}, f.header.contains k = v → Spec.hdr f k = v := fun h => by rw [contains_eq] at h; exact h
  have key : ∀ r, Handled c ok f c' f' r → r = .panic → ∃ st', Spec.Step auth st f st' := by
    intro r h hr
    cases h with
    | commitMissing => cases hr
    | commitWrite => cases hr
    | commitUnknown => cases hr
    | commit hc t ht l hl hrc hcm => exact ⟨_, Spec.Step.commit t l ho hc (hd ht) ((ha.tx t).symm.trans hl)⟩
    | basic hnc hb =>
      cases hb with
      | ack hc ht n hid hrc => exact ⟨_, Spec.Step.now ho (Or.inr ⟨Or.inl hc, n, (ackId_ok f n).1 hid⟩) (hd ht)⟩
      | _ => cases hr
  exact key _ h rfl

/-- A write has failed: a beginning of what was to be written for some of the frames. -/
def Begun (cfg : Config) (c : Conn) : Prop :=
  ∃ fs full, fs <+: c.hist ∧ Spec.Script cfg.auth cfg.parseErr cfg.heartBeat fs full ∧ Spec.spoken (c.out.map (·.frame)) <+: full

/-- The invariant: unless a write has failed, what was written, apart from messages and heart-beats, are the answers to the frames. -/
def Talk (cfg : Config) (c : Conn) : Prop :=
  (c.wfail = true ∧ Begun cfg c) ∨
  (∃ st, Spec.Dialogue cfg.auth cfg.heartBeat c.hist st (Spec.spoken (c.out.map (·.frame))) ∧
    (c.stage = .run → .panic ∉ c.outbox → c.effective = st.done ∧ Agrees c st)) ∨
  (c.stage ≠ .run ∧ ∃ h f st said late t, c.hist = h ++ [f] ∧ Spec.Dialogue cfg.auth cfg.heartBeat h st said ∧
    Spec.Refused cfg.auth cfg.parseErr st f late t ∧ Spec.spoken (c.out.map (·.frame)) = said ++ Spec.refusalOf f late t)

theorem spoken_append (a b : List (Option Frame)) : Spec.spoken (a ++ b) = Spec.spoken a ++ Spec.spoken b := by
  unfold Spec.spoken
  rw [List.filterMap_append, List.filter_append]

theorem spoken_replies (l : List Frame) (h : ∀ g ∈ l, g.command ≠ b!"MESSAGE") :
    Spec.spoken ((l.map (fun g => (⟨some g, none⟩ : Wr))).map (·.frame)) = l := by
  unfold Spec.spoken
  rw [List.map_map]
  have : (fun w : Wr => w.frame) ∘ (fun g => (⟨some g, none⟩ : Wr)) = some := rfl
  rw [this]
  have e : List.filterMap id (List.map some l) = l := by
    induction l with
    | nil => rfl
    | cons a l ih => simp [ih (fun g hg => h g (by simp [hg]))]
  rw [e, List.filter_eq_self]
  intro g hg
  exact decide_eq_true (h g hg)

theorem receipts_plain (f : Frame) : ∀ g ∈ Spec.receipts f, g.command ≠ b!"MESSAGE" := by
  intro g hg
  unfold Spec.receipts at hg
  obtain ⟨r, _, rfl⟩ := List.mem_map.1 hg
  show b!"RECEIPT" ≠ _
  decide

theorem answer_plain {auth : Bytes → Bytes → Bool} {min : Int} {st : Spec.St} {f : Frame} {a : List Frame} (h : Spec.Answer auth min st f a) :
    ∀ g ∈ a, g.command ≠ b!"MESSAGE" := by
  cases h with
  | welcome =>
    intro g hg
    rw [List.mem_singleton] at hg
    subst hg; show b!"CONNECTED" ≠ _; decide
  | silence => intro g hg; cases hg
  | receipt => exact receipts_plain f

theorem refusal_plain (f : Frame) (late : Bool) (t : Bytes) : ∀ g ∈ Spec.refusalOf f late t, g.command ≠ b!"MESSAGE" := by
  intro g hg
  unfold Spec.refusalOf at hg
  split at hg
  · rcases List.mem_append.1 hg with hg | hg
    · exact receipts_plain f g hg
    · rw [List.mem_singleton] at hg; subst hg; show b!"ERROR" ≠ _; decide
  · rw [List.mem_singleton] at hg; subst hg; show b!"ERROR" ≠ _; decide

theorem errorFrame_eq (cfg : Config) (e : Err) (f : Frame) :
    errorFrame cfg e f = ⟨b!"ERROR", (b!"message", e.text cfg) :: (Spec.hdr f b!"receipt").toList.map (fun r => (b!"receipt-id", r)), []⟩ := by
  unfold errorFrame Spec.hdr
  rw [contains_eq, show b!"receipt" = Hdr.receipt from rfl]
  cases Stomp.Spec.firstValue f.header Hdr.receipt <;> rfl

/-- A refused frame: what has been written. -/
theorem refused_out {cfg : Config} {st : Spec.St} {c c' c'' : Conn} {ok2 : Bool} {f f' : Frame} {e : Err}
    (hw : Why cfg st c f c' f' e) (hf : Fin cfg c' ok2 f' (.err e) c'') :
    (c''.wfail = true ∧ (c'.wfail = true ∨ c''.out = c.out ∨ Spec.Refused cfg.auth cfg.parseErr st f true (e.text cfg) ∧
      c''.out = c.out ++ (Spec.receipts f).map (fun g => ⟨some g, none⟩))) ∨
    ∃ late, Spec.Refused cfg.auth cfg.parseErr st f late (e.text cfg) ∧
      c''.out = c.out ++ (Spec.refusalOf f late (e.text cfg)).map (fun g => ⟨some g, none⟩) := by
  cases hf with
  | errFail =>
    refine Or.inl ⟨rfl, ?_⟩
    rcases hw with hw | ⟨h1, h2, h3⟩ | ⟨h1, h2, h3⟩
    · exact Or.inl hw
    · exact Or.inr (Or.inl h2)
    · exact Or.inr (Or.inr ⟨h1, h2⟩)
  | err _ _ hwf =>
    rcases hw with hw | ⟨h1, h2, h3⟩ | ⟨h1, h2, h3⟩
    · rw [hwf] at hw; cases hw
    · right
      refine ⟨false, h1, ?_⟩
      show c'.out ++ _ = _
      rw [h2, h3, errorFrame_eq]
      rfl
    · right
      refine ⟨true, h1, ?_⟩
      show c'.out ++ _ = _
      rw [contains_eq] at h3
      rw [h2, errorFrame_eq, show Spec.hdr f' b!"receipt" = none from h3]
      unfold Spec.refusalOf receiptWrites
      rw [if_pos rfl, List.map_append, List.append_assoc]
      rfl

theorem talk_frame {cfg : Config} {c : Conn} {ok1 ok2 : Bool} {f : Frame} {q : List Frame} {c' c'' : Conn} {f' : Frame} {r : Res}
    (hg : Gate cfg c) (ht : Talk cfg c) (ha : c.atSelect = true) (hwc : c.wfail = false)
    (hs : ({ c with inq := q, hist := c.hist ++ [f] } : Conn).stateFunc cfg ok1 f = (c', f', r))
    (hf : Fin cfg c' ok2 f' r c'') : Talk cfg c'' := by
  obtain ⟨hrun, hob⟩ := atSelect_run ha
  obtain ⟨st, h1, h2⟩ : ∃ st, Spec.Dialogue cfg.auth cfg.heartBeat c.hist st (Spec.spoken (c.out.map (·.frame))) ∧
      (c.stage = .run → .panic ∉ c.outbox → c.effective = st.done ∧ Agrees c st) := by
    rcases ht with h | h | ⟨h0, _⟩
    · rw [hwc] at h; cases h.1
    · exact h
    · exact absurd hrun h0
  obtain ⟨hef, hag⟩ := h2 hrun (by rw [hob]; simp)
  have hag' : Agrees { c with inq := q, hist := c.hist ++ [f] } st := ⟨hag.opened, hag.tx, hag.subs⟩
  have spk : ∀ {l : List Frame} {d : Conn}, (∀ g ∈ l, g.command ≠ b!"MESSAGE") → d.out = c.out ++ l.map (fun g => ⟨some g, none⟩) →
      Spec.spoken (d.out.map (·.frame)) = Spec.spoken (c.out.map (·.frame)) ++ l := by
    intro l d hl hd
    rw [hd, List.map_append, spoken_append, spoken_replies l hl]
  have same : ∀ {d : Conn}, c.hist <+: d.hist → d.out = c.out → d.wfail = true → Talk cfg d := by
    intro d hd ho hw
    exact Or.inl ⟨hw, c.hist, _, hd, .session h1, by rw [ho]; exact List.prefix_refl _⟩
  have hno : ∀ {e : Err}, Why cfg st { c with inq := q, hist := c.hist ++ [f] } f c' f' e → Fin cfg c' ok2 f' (.err e) c'' → c''.hist = c.hist ++ [f] →
      (c'.wfail = true → c'.out = c.out) → Talk cfg c'' := by
    intro e hw hf hh hout
    rcases refused_out hw hf with ⟨h, h3 | h3 | ⟨h3, h4⟩⟩ | ⟨late, h3, h4⟩
    · refine same (by rw [hh]; exact List.prefix_append _ _) ?_ h
      rw [← hout h3]
      cases hf with
      | err _ _ hw => rw [h3] at hw; cases hw
      | errFail => rfl
    · exact same (by rw [hh]; exact List.prefix_append _ _) h3 h
    · refine Or.inl ⟨h, c.hist ++ [f], _, by rw [hh]; exact List.prefix_refl _, .refused h1 h3, ?_⟩
      rw [spk (receipts_plain f) h4]
      unfold Spec.refusalOf
      rw [if_pos rfl, ← List.append_assoc]
      exact List.prefix_append _ _
    · refine Or.inr (Or.inr ⟨?_, c.hist, f, st, _, late, _, hh, h1, h3, spk (refusal_plain f late _) h4⟩)
      cases hf <;> simp
  by_cases hc : c.connected = true
  · have ho : st.opened = true := by rw [← hag.opened]; exact hc
    have hh := handled cfg { c with inq := q, hist := c.hist ++ [f] } ok1 f hc hg.tx
    rw [hs] at hh
    dsimp only at hh
    have hhist : c'.hist = c.hist ++ [f] := hh.keeps.hist
    have hout : c'.wfail = true → c'.out = c.out := by
      intro hw
      rcases hh.out with ⟨h, _⟩ | ⟨_, _, _, h, _⟩ | ⟨h, _⟩
      · exact h
      · rw [hw] at h
        replace h : true = c.wfail := h
        rw [hwc] at h; cases h
      · exact h
    have hpre : c.hist <+: c'.hist := by rw [hhist]; exact List.prefix_append _ _
    cases hr : r with
    | ok =>
      rw [hr] at hh hf
      cases hf
      obtain ⟨st', h4, h5, h6⟩ := (handled_spec (auth := cfg.auth) hh hag' ho hef).1 rfl
      rcases handled_says (auth := cfg.auth) (min := cfg.heartBeat) hh ho (by intro e; simp) with h | ⟨a, h7, h8⟩
      · exact same hpre (hout h) h
      · refine Or.inr (Or.inl ⟨st', ?_, fun _ _ => ⟨h5, h6⟩⟩)
        rw [hhist, spk (answer_plain h7) h8]
        exact h1.next h4 h7
    | panic =>
      rw [hr] at hh hf
      cases hf
      obtain ⟨st', h4⟩ := panic_step (auth := cfg.auth) hh hag' ho
      rcases handled_says (auth := cfg.auth) (min := cfg.heartBeat) hh ho (by intro e; simp) with h | ⟨a, h7, h8⟩
      · exact same hpre (hout h) h
      · refine Or.inr (Or.inl ⟨st', ?_, fun _ hp => absurd (by simp) hp⟩)
        show Spec.Dialogue _ _ c'.hist _ (Spec.spoken (c'.out.map _))
        rw [hhist, spk (answer_plain h7) h8]
        exact h1.next h4 h7
    | err e =>
      rw [hr] at hf hs
      refine hno (why_connected hag' hc hg.tx hs) hf ?_ hout
      cases hf <;> exact hhist
  · have hc : c.connected = false := by simpa using hc
    have ho : st.opened = false := by rw [← hag.opened]; exact hc
    unfold Conn.stateFunc at hs
    rw [if_pos (by simp [hc])] at hs
    rcases connecting_cases cfg { c with inq := q, hist := c.hist ++ [f] } ok1 f with ⟨v, cx, cy, hac, he⟩ | ⟨hna, e, v, he⟩
    · have hstep := Spec.Step.connect ho ((accepts_iff cfg f).2 ⟨v, cx, cy, hac⟩)
      rw [he] at hs
      dsimp only at hs
      rcases Conn.write_cases ({ c with inq := q, hist := c.hist ++ [f], version := v, writeTimeout := Conn.raise cy (asMilliseconds cfg.heartBeat maxHeartBeat) } : Conn) ok1
        (some (connectedFrame v (Conn.raise cx (asMilliseconds cfg.heartBeat maxHeartBeat)) (Conn.raise cy (asMilliseconds cfg.heartBeat maxHeartBeat)))) none with ⟨_, _, hw⟩ | ⟨_, hw⟩
      · rw [hw] at hs
        injection hs with e1 e2
        injection e2 with e2 e3
        subst e1 e3
        cases hf
        have hv : v = b!"1.2" ∧ Spec.offers f b!"1.2" ∨ v = b!"1.1" ∧ Spec.offers f b!"1.1" ∧ ¬Spec.offers f b!"1.2" := by
          have hd := hac.version
          cases hav : Spec.hdr f b!"accept-version" with
          | none =>
            rw [C31_absent f hav] at hd
            split at hd
            · injection hd with hd; exact absurd hd.symm hac.notV10
            · split at hd <;> cases hd
          | some av =>
            rw [C31_highest f av hac.command hav] at hd
            unfold Spec.highest at hd
            by_cases h12 : b!"1.2" ∈ splitOn 44 av
            · rw [if_pos h12] at hd; injection hd with hd
              exact Or.inl ⟨hd.symm, (offers_iff hav).2 h12⟩
            · rw [if_neg h12] at hd
              by_cases h11 : b!"1.1" ∈ splitOn 44 av
              · rw [if_pos h11] at hd; injection hd with hd
                exact Or.inr ⟨hd.symm, (offers_iff hav).2 h11, fun h => h12 ((offers_iff hav).1 h)⟩
              · rw [if_neg h11] at hd
                split at hd
                · rename_i v' hv'
                  injection hd with hd
                  split at hv'
                  · injection hv' with hv'; exact absurd (hd.symm.trans hv'.symm) hac.notV10
                  · cases hv'
                · cases hd
        have hans : Spec.Answer cfg.auth cfg.heartBeat st f [connectedFrame v (Conn.raise cx (asMilliseconds cfg.heartBeat maxHeartBeat)) (Conn.raise cy (asMilliseconds cfg.heartBeat maxHeartBeat))] := by
          rw [raise_granted, raise_granted]
          exact Spec.Answer.welcome ho ((accepts_iff cfg f).2 ⟨v, cx, cy, hac⟩) v cx cy ((C10_server_parse f hac.command cx cy).1 hac.heartBeat) hv
        refine Or.inr (Or.inl ⟨{ st with opened := true }, ?_, fun _ _ => ⟨hef, rfl, hag.tx, hag.subs⟩⟩)
        have e := spk (d := { c with out := c.out ++ [⟨some (connectedFrame v (Conn.raise cx (asMilliseconds cfg.heartBeat maxHeartBeat)) (Conn.raise cy (asMilliseconds cfg.heartBeat maxHeartBeat))), none⟩] }) (answer_plain hans) rfl
        have := h1.next hstep hans
        rw [← e] at this
        exact this
      · rw [hw] at hs
        injection hs with e1 e2
        injection e2 with e2 e3
        subst e1 e3
        cases hf
        exact same (List.prefix_append _ _) rfl rfl
    · have hs' := hs
      rw [he] at hs
      injection hs with e1 e2
      injection e2 with e2 e3
      subst e3
      have hwhy := why_connecting (cfg := cfg) ho hs'
      refine hno (Or.inr (Or.inl hwhy)) hf ?_ (fun _ => by rw [← e1])
      have : c'.hist = c.hist ++ [f] := by rw [← e1]
      cases hf <;> exact this

theorem talk_step {cfg : Config} {c : Conn} {e : Conn.Ev} {c' : Conn} (hg : Gate cfg c) (hm : MsgsOk c) (ht : Talk cfg c) (hs : Step cfg c e c') :
    Talk cfg c' := by
  cases hfr : isFrame e with
  | true =>
    cases hs with
    | frame ok1 ok2 f q c1 _ f' r ha hq hsf hfin =>
      cases hwc : c.wfail with
      | false => exact talk_frame hg ht ha hwc hsf hfin
      | true =>
        rcases ht with ⟨_, hb⟩ | ⟨st, hd, _⟩ | ⟨h0, _⟩
        case inr.inr => exact absurd (atSelect_run ha).1 h0
        all_goals
          obtain ⟨fs, full, b1, b2, b3⟩ : Begun cfg c := by
            first
              | exact hb
              | exact ⟨_, _, List.prefix_refl _, .session hd, List.prefix_refl _⟩
          have stay : ∀ {d : Conn}, c.hist <+: d.hist → d.out = c.out → d.wfail = true → Talk cfg d := fun e1 e2 e3 =>
            Or.inl ⟨e3, fs, full, b1.trans e1, b2, by rw [e2]; exact b3⟩
          rcases frame_cases hg hsf hfin with ⟨_, v, cx, cy, _, ⟨h, _⟩ | ⟨_, rfl⟩⟩ | ⟨_, _, e, v, ⟨h, _⟩ | ⟨_, rfl⟩⟩ | ⟨_, hh, hf⟩
          · rw [hwc] at h; cases h
          · exact stay (List.prefix_append _ _) rfl rfl
          · rw [hwc] at h; cases h
          · exact stay (List.prefix_append _ _) rfl rfl
          · obtain ⟨h2, h1⟩ := hh.mute hwc
            have h3 : c.hist <+: c1.hist := by rw [hh.keeps.hist]; exact List.prefix_append _ _
            cases hf with
            | ok => exact stay h3 h2 h1
            | panic => exact stay h3 h2 h1
            | err _ _ h => rw [h1] at h; cases h
            | errFail => exact stay h3 h2 rfl
    | _ => cases hfr
  | false =>
    have hq := quiet_step hs hfr
    have hsp : Spec.spoken (c'.out.map (·.frame)) = Spec.spoken (c.out.map (·.frame)) := by
      rcases out_step hg hm hs with ⟨h, _⟩ | ⟨h, _⟩ | ⟨_, _, h, _⟩ | ⟨_, _, m, a, hmc, _, h⟩
      · rw [h]
      · rw [hfr] at h; cases h
      · rw [h, List.map_append, spoken_append]; exact List.append_nil _
      · rw [h, List.map_append, spoken_append]
        have : Spec.spoken ([(⟨some (m.alloc c.lastMsgId a).frame, some m.tag⟩ : Wr)].map (·.frame)) = [] := by
          unfold Spec.spoken
          have hc : (m.alloc c.lastMsgId a).frame.command = b!"MESSAGE" := (allocFrame_command ..).trans hmc
          simp [hc]
        rw [this, List.append_nil]
    rcases ht with ⟨h, fs, full, h1, h2, h3⟩ | ⟨st, h1, h2⟩ | ⟨h0, h, f, st, said, late, t, h1, h2, h3, h4⟩
    · exact Or.inl ⟨hq.wfail h, fs, full, by rw [hq.hist]; exact h1, h2, by rw [hsp]; exact h3⟩
    · refine Or.inr (Or.inl ⟨st, by rw [hsp, hq.hist]; exact h1, fun hr hp => ?_⟩)
      have hr' : c.stage = .run := Decidable.byContradiction (fun hn => hq.stage hn hr)
      obtain ⟨ha, hb⟩ := h2 hr' (fun hx => hp (hq.panic hx))
      have htx := hq.tx.resolve_right (fun hn => hn hr)
      have hsu := hq.subs.resolve_right (fun hn => hn hr)
      exact ⟨hq.effective.trans ha, hq.connected.trans hb.opened, fun t => by rw [htx]; exact hb.tx t, fun id => by rw [hsu]; exact hb.subs id⟩
    · exact Or.inr (Or.inr ⟨hq.stage h0, h, f, st, said, late, t, hq.hist.trans h1, h2, h3, hsp.trans h4⟩)

theorem talk_run {cfg : Config} {me : Nat} {es : List Conn.Ev} {c : Conn} (hq : ∀ e ∈ es, EnvOk e) (h : (Conn.init me).run cfg es = some c) : Talk cfg c :=
  (run_inv (P := Talk cfg) (fun _ _ _ hg hm _ hp hs => talk_step hg hm hp hs) es c hq
    (Or.inr (Or.inl ⟨_, Spec.Dialogue.start, fun _ _ => ⟨rfl, rfl, fun _ => rfl, fun _ => rfl⟩⟩)) h).2.2

end Stomp.Server
