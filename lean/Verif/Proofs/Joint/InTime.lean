import Verif.Proofs.Joint.Inv
import Verif.Proofs.Server.Answered
/-! # What a client reads was caused by what it wrote before -/
namespace Stomp.Joint
open Stomp

/-- A RECEIPT read answers a frame written before; a MESSAGE read has the id of a SUBSCRIBE frame written before. -/
def Caused (tr : List Client.Obs) : Prop :=
  ∀ (pre post : List Client.Obs) (g : Frame), tr = pre ++ .read (some g) :: post →
    (g.command = b!"RECEIPT" → ∃ f v, .sent f ∈ pre ∧ f.command ∉ Server.unanswered ∧ Server.Spec.hdr g b!"receipt-id" = some v ∧ Server.Spec.hdr f b!"receipt" = some v) ∧
    (g.command = b!"MESSAGE" → ∃ f i, .sent f ∈ pre ∧ f.command = b!"SUBSCRIBE" ∧ Server.Spec.hdr f b!"id" = some i ∧ Server.Spec.hdr g b!"subscription" = some i)

theorem mem_written {s : Client.Sys} {f : Frame} (h : f ∈ Client.Spec.written s) : .sent f ∈ s.trace := by
  obtain ⟨o, ho, h3⟩ := List.mem_filterMap.1 h
  cases o with
  | sent y => simp only [Option.some.injEq] at h3; subst h3; exact ho
  | _ => cases h3

theorem PeerInv.mem_hist {p : Peer} {k : Server.Conn} (h : PeerInv p k) {f : Frame} (hf : f ∈ k.hist) (hc : f.command ≠ b!"CONNECT") : .sent f ∈ p.client.trace := by
  rcases List.mem_cons.1 (h.up.subset (List.mem_append_left _ hf)) with rfl | h1
  · exact absurd h.hello.1 hc
  · exact mem_written h1

/-- What the server has written to the client, it was caused to. -/
theorem down_caused {cfg : Server.Config} {s : State} (h : Inv cfg s) {c : Nat} {p : Peer} {k : Server.Conn} (hp : s.peers[c]? = some p) (hk : s.server.conns[c]? = some k)
    {g : Frame} (hg : some g ∈ down k) :
    (g.command = b!"RECEIPT" → ∃ f v, .sent f ∈ p.client.trace ∧ f.command ∉ Server.unanswered ∧ Server.Spec.hdr g b!"receipt-id" = some v ∧ Server.Spec.hdr f b!"receipt" = some v) ∧
    (g.command = b!"MESSAGE" → ∃ f i, .sent f ∈ p.client.trace ∧ f.command = b!"SUBSCRIBE" ∧ Server.Spec.hdr f b!"id" = some i ∧ Server.Spec.hdr g b!"subscription" = some i) := by
  have hi := h.peer c p k hp hk
  obtain ⟨w, hw, hwg⟩ := List.mem_map.1 hg
  obtain ⟨ces, hr, henv⟩ := Server.conn_run h.run h.alive hk
  constructor
  · intro hc
    obtain ⟨f, hf, v, h1, h2, h3⟩ := Server.answered_run hr henv w hw g hwg hc
    exact ⟨f, v, hi.mem_hist hf (fun e => h3 (by rw [e]; decide)), h3, h1, h2⟩
  · intro hc
    obtain ⟨_, _, q, _, _, _, hq, hqc, hd⟩ := Server.C44_delivered_partial cfg s.events s.server h.run h.alive c k hk w hw g hwg hc
    obtain ⟨i, h1, h2⟩ := hd.subscription
    exact ⟨q, i, hi.mem_hist hq (by rw [hqc]; decide), hqc, h1, h2⟩

theorem caused_one {tr : List Client.Obs} (h : Caused tr) {x : Option Frame}
    (hx : ∀ g, x = some g → (g.command = b!"RECEIPT" → ∃ f v, .sent f ∈ tr ∧ f.command ∉ Server.unanswered ∧ Server.Spec.hdr g b!"receipt-id" = some v ∧ Server.Spec.hdr f b!"receipt" = some v) ∧
      (g.command = b!"MESSAGE" → ∃ f i, .sent f ∈ tr ∧ f.command = b!"SUBSCRIBE" ∧ Server.Spec.hdr f b!"id" = some i ∧ Server.Spec.hdr g b!"subscription" = some i)) :
    Caused (tr ++ [.read x]) := by
  intro pre post g e
  rcases List.eq_nil_or_concat post with rfl | ⟨post, o, rfl⟩
  · obtain ⟨e1, e2⟩ := List.append_inj' e rfl
    injection e2 with e2; injection e2 with e2
    subst e1
    exact hx g e2
  · have e : tr ++ [.read x] = (pre ++ .read (some g) :: post) ++ [o] := by rw [e]; simp
    obtain ⟨e1, _⟩ := List.append_inj' e rfl
    exact h pre post g e1

theorem caused_none {tr l : List Client.Obs} (h : Caused tr) (hl : Client.readIn l = []) : Caused (tr ++ l) := by
  intro pre post g e
  rcases List.append_eq_append_iff.1 e with ⟨z, h1, h2⟩ | ⟨z, h1, h2⟩
  · rw [h2, Client.readIn_append] at hl
    simp [Client.readIn] at hl
  · cases z with
    | nil =>
      have h2 : .read (some g) :: post = l := h2
      rw [← h2] at hl
      simp [Client.readIn] at hl
    | cons x z =>
      rw [List.cons_append] at h2
      injection h2 with h2 h3
      subst h2
      exact h pre z g h1

/-- What a client reads was caused by what it wrote before. -/
theorem in_time {cfg : Server.Config} {s : State} (h : Spec.Reached cfg s) {c : Nat} {p : Peer} (hp : s.peers[c]? = some p) : Caused p.client.trace := by
  refine (joint_induction (P := fun s => ∀ (c : Nat) (p : Peer), s.peers[c]? = some p → Caused p.client.trace) (by intro c p hp; simp [State.init] at hp) ?_ h).2 c p hp
  clear hp h c p s
  intro s e s' hi hi' hP hs
  cases e with
  | dial ccfg counter hello =>
    simp only [State.step] at hs
    split at hs
    · injection hs with hs; subst hs
      intro c p hp
      replace hp : (s.peers ++ [_])[c]? = some p := hp
      by_cases hlt : c < s.peers.length
      · rw [List.getElem?_append_left hlt] at hp
        exact hP c p hp
      · rw [List.getElem?_append_right (by omega)] at hp
        obtain ⟨h1, h2⟩ := List.getElem?_eq_some_iff.1 hp
        simp at h1 h2
        subst h2
        intro pre post g e
        simp [Client.Sys.init] at e
    · cases hs
  | welcome c n =>
    simp only [State.step] at hs
    split at hs
    · rename_i p k hp hk
      split at hs
      · split at hs
        · injection hs with hs; subst hs
          intro j q hq
          replace hq : (s.peers.set c _)[j]? = some q := hq
          rw [List.getElem?_set] at hq
          split at hq
          · split at hq
            · injection hq with hq; subst hq
              exact hP c p hp
            · cases hq
          · exact hP j q hq
        · cases hs
      · cases hs
    · cases hs
  | client c n e =>
    simp only [State.step] at hs
    split at hs
    · rename_i p k hp hk
      split at hs
      · rename_i hcan
        split at hs
        · rename_i cl hcl
          injection hs with hs; subst hs
          intro j q hq
          replace hq : (s.peers.set c _)[j]? = some q := hq
          rw [List.getElem?_set] at hq
          split at hq
          · split at hq
            · injection hq with hq; subst hq
              show Caused cl.trace
              rcases Client.read_or_not hcl with ⟨x, rfl, ht⟩ | ⟨_, ⟨l, ht, hl, _⟩ | ⟨r, f, ht, _⟩⟩
              · rw [ht]
                refine caused_one (hP c p hp) ?_
                rintro g rfl
                rw [Bool.and_eq_true] at hcan
                have hx := hcan.2
                simp only [Peer.can, decide_eq_true_eq] at hx
                exact down_caused hi hp hk ((legible_prefix (hi.down_wf hk) n).subset (List.mem_of_getElem? hx))
              · rw [ht]; exact caused_none (hP c p hp) hl
              · rw [ht]; exact caused_none (hP c p hp) rfl
            · cases hq
          · exact hP j q hq
        · cases hs
      · cases hs
    · cases hs
  | server n e =>
    simp only [State.step] at hs
    split at hs
    · split at hs
      · injection hs with hs; subst hs
        exact hP
      · cases hs
    · cases hs

end Stomp.Joint
