import Verif.Props.Effects
import Verif.Props.Server.QueueOrder
import Verif.Proofs.Server.Returns
/-! # C73: every message of a queue arrives once -/
namespace Stomp

/-- The elements of a list, sorted by the one of `bs` they belong to. -/
theorem flatMap_insert {α β : Type} (m : β → α → Bool) (x : α) (g : β → List α) (bs : List β) :
    (bs.flatMap fun b => if m b x then x :: g b else g b).Perm (List.replicate (bs.countP (m · x)) x ++ bs.flatMap g) := by
  induction bs with
  | nil => exact .refl _
  | cons b bs ih =>
    rw [List.flatMap_cons, List.flatMap_cons, List.countP_cons]
    by_cases h : m b x = true
    · rw [if_pos h, if_pos h, List.replicate_succ, List.cons_append, List.cons_append]
      refine .cons _ ((ih.append_left _).trans ?_)
      rw [← List.append_assoc, ← List.append_assoc]
      exact List.perm_append_comm.append_right _
    · rw [if_neg h, if_neg h, Nat.add_zero]
      refine (ih.append_left _).trans ?_
      rw [← List.append_assoc, ← List.append_assoc]
      exact List.perm_append_comm.append_right _

theorem flatMap_split {α β : Type} (m : β → α → Bool) (bs : List β) (ws : List α) (h : ∀ x ∈ ws, bs.countP (m · x) = 1) : (bs.flatMap fun b => ws.filter (m b)).Perm ws := by
  induction ws with
  | nil =>
    have h1 : (bs.flatMap fun b => ([] : List α).filter (m b)) = [] := List.flatMap_eq_nil_iff.2 (fun _ _ => rfl)
    rw [h1]
  | cons x ws ih =>
    have h1 : (fun b => (x :: ws).filter (m b)) = fun b => if m b x then x :: ws.filter (m b) else ws.filter (m b) := by
      funext b
      rw [List.filter_cons]
    rw [h1]
    refine (flatMap_insert m x _ bs).trans ?_
    rw [h x List.mem_cons_self]
    exact .cons _ (ih (fun y hy => h y (List.mem_cons_of_mem _ hy)))

theorem countP_one {α : Type} {p : α → Bool} {l : List α} {i : Nat} {a : α} (hi : l[i]? = some a) (hp : p a = true) (h : ∀ (j : Nat) (b : α), l[j]? = some b → p b = true → j = i) :
    l.countP p = 1 := by
  induction l generalizing i with
  | nil => cases hi
  | cons x l ih =>
    rw [List.countP_cons]
    cases i with
    | zero =>
      injection hi with hi; subst hi
      rw [if_pos hp]
      have : l.countP p = 0 := List.countP_eq_zero.2 (fun b hb hpb => by
        obtain ⟨j, hj⟩ := List.getElem?_of_mem hb
        exact absurd (h (j + 1) b hj hpb) (by simp))
      rw [this]
    | succ i =>
      have hx : ¬p x = true := fun hx => absurd (h 0 x rfl hx) (by simp)
      rw [if_neg hx, ih hi (fun j b hj hb => Nat.succ.inj (h (j + 1) b hj hb))]

/-- Lists found for the pairs of two lists, one after the other. -/
theorem flatMap_pairs {α β γ δ : Type} {f : α → List γ} {g : β → List δ} {R : γ × δ → Prop} : ∀ {as : List α} {bs : List β}, as.length = bs.length →
    (∀ (i : Nat) (a : α) (b : β), as[i]? = some a → bs[i]? = some b → ∃ ps : List (γ × δ), ps.map (·.1) = f a ∧ (ps.map (·.2)).Perm (g b) ∧ ∀ x ∈ ps, R x) →
    ∃ ps : List (γ × δ), ps.map (·.1) = as.flatMap f ∧ (ps.map (·.2)).Perm (bs.flatMap g) ∧ ∀ x ∈ ps, R x
  | [], [], _, _ => ⟨[], rfl, .refl _, fun _ h => absurd h List.not_mem_nil⟩
  | [], _ :: _, h, _ => by cases h
  | _ :: _, [], h, _ => by cases h
  | a :: as, b :: bs, hl, h => by
    obtain ⟨p, h1, h2, h3⟩ := h 0 a b rfl rfl
    obtain ⟨q, g1, g2, g3⟩ := flatMap_pairs (as := as) (bs := bs) (Nat.succ.inj hl) (fun i a b ha hb => h (i + 1) a b ha hb)
    refine ⟨p ++ q, ?_, ?_, fun x hx => (List.mem_append.1 hx).elim (h3 x) (g3 x)⟩
    · rw [List.map_append, h1, g1, List.flatMap_cons]
    · rw [List.map_append, List.flatMap_cons]
      exact h2.append g2

theorem nodup_flatMap_of {α β : Type} {f : α → List β} {l : List α} (h1 : ∀ a ∈ l, (f a).Nodup)
    (h2 : ∀ (i j : Nat) (a b : α), i ≠ j → l[i]? = some a → l[j]? = some b → ∀ x ∈ f a, x ∉ f b) : (l.flatMap f).Nodup := by
  unfold List.Nodup
  rw [List.pairwise_flatMap]
  refine ⟨h1, List.pairwise_iff_getElem.2 (fun i j hi hj hlt x hx y hy e => ?_)⟩
  subst e
  exact h2 i j _ _ (Nat.ne_of_lt hlt) (List.getElem?_eq_getElem hi) (List.getElem?_eq_getElem hj) x hx hy

end Stomp

namespace Stomp.Server
open Stomp

/-- **C73**, what keeps a message from coming back: if all connections are open and no client has refused a message or given up a subscription, no message was ever put back in a queue. -/
theorem C73_none_back (cfg : Config) (es : List Sys.Ev) (s : Sys) (h : Sys.init.run cfg es = some s) (hc : s.crashed = false) (ha : ∀ k ∈ s.conns, Spec.Accepting k) (d : Bytes) :
    ∀ a ∈ Spec.observe (Spec.asked d) cfg Sys.init es, Spec.isRequeue a = false := none_back h hc ha d

/-- The destination of a message is that of its copies. -/
theorem copy_target {s : Sys} {t : Tag} {f : Frame} (h : Spec.CopyOf s t f) {d : Bytes} (hd : Spec.hdr f b!"destination" = some d) :
    ∃ k o, s.conns[t.src]? = some k ∧ o ∈ Spec.messages t.src 0 k.effective ∧ o.tag = t ∧ Spec.target o = some d := by
  obtain ⟨_, k, o, h1, h2, h3, _, h5⟩ := h
  exact ⟨k, o, h1, h2, h3, (others_value h5 (by decide)).symm.trans hd⟩

end Stomp.Server

namespace Stomp.Joint
open Stomp

/-- A MESSAGE for a queue, and the message it is. -/
def pairOf (d : Bytes) (w : Server.Wr) : Option (Frame × Server.Tag) :=
  match w.frame, Server.Spec.writtenOf d w with
  | some f, some t => some (f, t)
  | _, _ => none

theorem pairs_snd (d : Bytes) (l : List Server.Wr) : (l.filterMap (pairOf d)).map (·.2) = Server.Spec.writtenOn d l := by
  unfold Server.Spec.writtenOn
  rw [List.map_filterMap]
  congr 1
  funext w
  unfold pairOf Server.Spec.writtenOf
  cases w.frame with
  | none => rfl
  | some f =>
    by_cases h : Server.Spec.hdr f b!"destination" = some d
    · simp only [if_pos h]
      cases w.tag <;> rfl
    · simp only [if_neg h]; rfl

/-- What is written to a client for a queue. -/
theorem pairs_fst {cfg : Server.Config} {s : State} (h : Spec.Reached cfg s) {c : Nat} {k : Server.Conn} (hk : s.server.conns[c]? = some k) (d : Bytes) (hq : Server.Spec.IsQueue d) :
    (k.out.filterMap (pairOf d)).map (·.1) =
      (Spec.writtenTo k).filter (fun g => decide (g.command = b!"MESSAGE" ∧ Stomp.Spec.firstValue g.header b!"destination" = some d)) ∧
    ∀ x ∈ k.out.filterMap (pairOf d), some x.1 ∈ down k ∧ x.1.command = b!"MESSAGE" ∧ Stomp.Spec.firstValue x.1.header b!"destination" = some d ∧ Server.Spec.CopyOf s.server x.2 x.1 := by
  have hinv := inv_reached h
  have hcopy := (Server.C63_follows cfg s.events s.server hinv.run hinv.alive d hq c k hk).2
  have htag := Server.written_run hinv.run hinv.alive c k hk
  have key : ∀ w ∈ k.out, ∀ t, Server.Spec.writtenOf d w = some t → ∃ f, w.frame = some f ∧ w.tag = some t ∧ f.command = b!"MESSAGE" ∧ Server.Spec.hdr f b!"destination" = some d := by
    intro w hw t ht
    unfold Server.Spec.writtenOf at ht
    split at ht
    · rename_i f hf
      split at ht
      · rename_i hd
        obtain ⟨g, hg, ⟨q, o, hq, ho, hot, hcmd, _⟩, _⟩ := htag w hw t ht
        rw [hf] at hg; injection hg with hg; subst hg
        obtain ⟨_, _, _, heo⟩ := Server.messages_from ho
        exact ⟨f, hf, ht, by rw [show f.command = o.frame.command from hcmd, heo], hd⟩
      · cases ht
    · cases ht
  constructor
  · unfold Spec.writtenTo
    generalize hl : k.out = l at hcopy key
    clear hl
    induction l with
    | nil => rfl
    | cons w l ih =>
      have ih := ih (fun w hw => hcopy w (List.mem_cons_of_mem _ hw)) (fun w hw => key w (List.mem_cons_of_mem _ hw))
      rw [List.filterMap_cons, List.filterMap_cons]
      have hc := hcopy w List.mem_cons_self
      have hk := key w List.mem_cons_self
      unfold pairOf
      cases hf : w.frame with
      | none => exact ih
      | some f =>
        rw [List.filter_cons]
        cases ht : Server.Spec.writtenOf d w with
        | some t =>
          obtain ⟨g, hg, _, h1, h2⟩ := hk t ht
          rw [hf] at hg; injection hg with hg; subst hg
          rw [if_pos (decide_eq_true ⟨h1, h2⟩)]
          exact congrArg (f :: ·) ih
        | none =>
          rw [if_neg]
          · exact ih
          · intro hd
            obtain ⟨h1, h2⟩ := of_decide_eq_true hd
            obtain ⟨t, h3, _⟩ := hc f hf h1 h2
            rw [ht] at h3; cases h3
  · intro x hx
    obtain ⟨w, hw, hp⟩ := List.mem_filterMap.1 hx
    unfold pairOf at hp
    split at hp
    · rename_i f t hf ht
      injection hp with hp; subst hp
      obtain ⟨g, hg, _, h1, h2⟩ := key w hw t ht
      rw [hf] at hg; injection hg with hg; subst hg
      obtain ⟨t', h3, h4⟩ := hcopy w hw f hf h1 h2
      rw [ht] at h3; injection h3 with h3; subst h3
      exact ⟨List.mem_map.2 ⟨w, hw, hf⟩, h1, h2, h4⟩
    · cases hp

/-- The request of the subscription was accepted. -/
def Registered (p : Peer) (b : Client.Sub) : Prop := ∃ t r, .accepted t r ∈ p.client.trace ∧ r.chan = some b.chan

/-- Two registered subscriptions with one id are one. -/
theorem registered_one {cfg : Server.Config} {s : State} (h : Spec.Reached cfg s) {c : Nat} {p : Peer} {k : Server.Conn} (hp : s.peers[c]? = some p) (hk : s.server.conns[c]? = some k)
    (hd : Client.Spec.Distinct p.client) {i j : Nat} {b b' : Client.Sub} (hb : p.client.subs[i]? = some b) (hb' : p.client.subs[j]? = some b') (hr : Registered p b) (hr' : Registered p b')
    (he : b'.id = b.id) : j = i := by
  have hpi := (inv_reached h).peer c p k hp hk
  have hall := Client.all_run hpi.run
  have hsub := (Client.iso_run hpi.run).all.sub
  obtain ⟨t, r, h1, h2⟩ := hr
  obtain ⟨t', r', h1', h2'⟩ := hr'
  have own := Client.own_sub hd hall.origin hsub hb
  have own' := Client.own_sub hd hall.origin hsub hb'
  have m1 : (t, r) ∈ Client.acceptedIn p.client.trace := List.mem_filterMap.2 ⟨_, h1, rfl⟩
  have m2 : (t', r') ∈ Client.acceptedIn p.client.trace := List.mem_filterMap.2 ⟨_, h1', rfl⟩
  have hch := own.key t r t' r' m1 m2 h2 (by rw [h2']; simp) (((own'.sub t' r' m2 h2').2 _).2 he.symm)
  rw [h2'] at hch
  injection hch with hch
  obtain ⟨x, e1, e2⟩ := hsub.chan i b hb
  obtain ⟨y, e3, e4⟩ := hsub.chan j b' hb'
  rw [hch, e1] at e3
  injection e3 with e3; subst e3
  rw [e2] at e4
  injection e4 with e4
  exact e4.symm

/-- What one program has got of a queue is what was written to it. -/
theorem got_written {cfg : Server.Config} {s : State} (h : Spec.Reached cfg s) {c : Nat} {p : Peer} {k : Server.Conn} (hp : s.peers[c]? = some p) (hk : s.server.conns[c]? = some k)
    (hs : Spec.Settled p k) (hd : Client.Spec.Distinct p.client) (hu : Spec.Stays p) (d : Bytes) (hq : Server.Spec.IsQueue d) :
    ∃ ps : List (Frame × Server.Tag), ps.map (·.1) = Spec.gotFrom d p ∧ (ps.map (·.2)).Perm (Server.Spec.writtenOn d k.out) ∧ ∀ x ∈ ps, Server.Spec.CopyOf s.server x.2 x.1 := by
  classical
  have hpi := (inv_reached h).peer c p k hp hk
  obtain ⟨hw1, hw2⟩ := pairs_fst h hk d hq
  rw [← pairs_snd]
  generalize k.out.filterMap (pairOf d) = ws at hw1 hw2
  let m : Client.Sub → Frame × Server.Tag → Bool := fun b x => decide (Stomp.Spec.firstValue x.1.header b!"subscription" = some b.id ∧ Registered p b)
  have hperm : (p.client.subs.flatMap fun b => ws.filter (m b)).Perm ws := by
    refine flatMap_split m _ _ (fun x hx => ?_)
    obtain ⟨g1, g2, _⟩ := hw2 x hx
    obtain ⟨i, b, t, r, h1, h2, h3, h4⟩ := message_sub h hp hk g1 g2
    refine countP_one h1 (decide_eq_true ⟨h4, t, r, h2, h3⟩) (fun j b' hb' hm => ?_)
    obtain ⟨e1, e2⟩ := of_decide_eq_true hm
    rw [h4] at e1
    injection e1 with e1
    exact registered_one h hp hk hd h1 hb' ⟨t, r, h2, h3⟩ e2 e1.symm
  refine ⟨p.client.subs.flatMap fun b => ws.filter (m b), ?_, hperm.map _, fun x hx => (hw2 x (hperm.subset hx)).2.2.2⟩
  unfold Spec.gotFrom
  rw [List.map_flatMap]
  have hcongr : ∀ b ∈ p.client.subs, (ws.filter (m b)).map (·.1) = (Stomp.Spec.messagesOn b).filter fun f => decide (Stomp.Spec.firstValue f.header b!"destination" = some d) := by
    intro b hb
    obtain ⟨i, hi⟩ := List.getElem?_of_mem hb
    by_cases hreg : Registered p b
    · obtain ⟨t, r, h2, h3⟩ := hreg
      rw [(C65_messages h hp hk hd hi h2 h3 (fun t r ht hr => absurd hr (hu t r ht))).2 hs.idle (hs.subs b hb)]
      unfold Spec.forSub
      rw [List.filter_filter]
      have h4 : ws.filter (m b) = ws.filter ((fun g : Frame => decide (Stomp.Spec.firstValue g.header b!"subscription" = some b.id)) ∘ (·.1)) := by
        refine List.filter_congr (fun x _ => ?_)
        exact decide_eq_decide.2 ⟨fun h => h.1, fun h => ⟨h, t, r, h2, h3⟩⟩
      rw [h4, ← List.filter_map, hw1, List.filter_filter]
      refine List.filter_congr (fun g _ => ?_)
      rw [← Bool.decide_and, ← Bool.decide_and]
      exact decide_eq_decide.2 ⟨fun h => ⟨h.2.2, h.2.1, h.1⟩, fun h => ⟨h.2.2, h.2.1, h.1⟩⟩
    · have h4 : Stomp.Spec.messagesOn b = [] := by
        refine List.eq_nil_iff_forall_not_mem.2 (fun f hf => ?_)
        obtain ⟨_, t, r, _, h5, h6, _⟩ := (Client.C23_isolation hpi.run hi).1 f hf
        exact hreg ⟨t, r, List.singleton_sublist.1 h5, h6⟩
      rw [h4, List.filter_eq_nil_iff.2 (fun x _ hx => hreg (of_decide_eq_true hx).2)]
      rfl
  rw [List.flatMap_def, List.flatMap_def, List.map_congr_left hcongr]

/-- The connections of programs that neither refuse messages nor give up subscriptions. -/
theorem accepting {cfg : Server.Config} {s : State} (h : Spec.Reached cfg s) (hr : Spec.AtRest s.server) {c : Nat} {p : Peer} {k : Server.Conn} (hp : s.peers[c]? = some p)
    (hk : s.server.conns[c]? = some k) (hs : Spec.Settled p k) (hu : Spec.Stays p) (ht : Spec.Takes p) : Server.Spec.Accepting k := by
  have hinv := inv_reached h
  have hpi := hinv.peer c p k hp hk
  refine ⟨(hr.conns k (List.mem_of_getElem? hk)).1, ?_⟩
  rw [(all_processed h hr hp hk hs).2]
  intro f hf
  rcases List.mem_cons.1 hf with rfl | hf
  · rw [hpi.hello.1]; decide
  · rw [← (all_processed h hr hp hk hs).1] at hf
    obtain ⟨o, ho, he⟩ := List.mem_filterMap.1 hf
    cases o <;> simp only [Stomp.Spec.putOn, reduceCtorEq] at he
    rename_i t r
    have hc : f.command = r.frame.command := by
      unfold Client.Spec.wire at he
      split at he
      · cases he
      · split at he
        all_goals injection he with he; rw [← he]
    rw [hc]
    exact ⟨ht t r ho, hu t r ho⟩

theorem mem_allSent {d : Bytes} {s : Server.Sys} {t : Server.Tag} :
    t ∈ Spec.allSent d s ↔ ∃ k o, s.conns[t.src]? = some k ∧ o ∈ Server.Spec.messages t.src 0 k.effective ∧ o.tag = t ∧ Server.Spec.target o = some d := by
  unfold Spec.allSent Spec.sentFrom
  rw [List.mem_flatMap]
  constructor
  · rintro ⟨⟨k, c⟩, h1, h2⟩
    obtain ⟨o, h3, rfl⟩ := List.mem_map.1 h2
    obtain ⟨h3, h4⟩ := List.mem_filter.1 h3
    have h5 := (Server.messages_tag h3).1
    rw [h5]
    exact ⟨k, o, List.mk_mem_zipIdx_iff_getElem?.1 h1, h3, rfl, of_decide_eq_true h4⟩
  · rintro ⟨k, o, h1, h2, h3, h4⟩
    exact ⟨(k, t.src), List.mk_mem_zipIdx_iff_getElem?.2 h1, List.mem_map.2 ⟨o, List.mem_filter.2 ⟨h2, decide_eq_true h4⟩, h3⟩⟩

theorem allSent_nodup (d : Bytes) (s : Server.Sys) : (Spec.allSent d s).Nodup := by
  refine nodup_flatMap_of (fun x _ => ?_) (fun i j x y hne hx hy t h1 h2 => ?_)
  · exact ((List.filter_sublist ..).map _).nodup (Server.messages_nodup ..)
  · rw [List.getElem?_zipIdx] at hx hy
    obtain ⟨k, _, rfl⟩ := Option.map_eq_some_iff.1 hx
    obtain ⟨k', _, rfl⟩ := Option.map_eq_some_iff.1 hy
    obtain ⟨o, h3, rfl⟩ := List.mem_map.1 h1
    obtain ⟨o', h4, he⟩ := List.mem_map.1 h2
    have e1 := (Server.messages_tag (List.mem_filter.1 h3).1).1
    have e2 := (Server.messages_tag (List.mem_filter.1 h4).1).1
    rw [he, e1] at e2
    exact hne (by simpa using e2)

/-- **C73.** Server and any number of clients, in any execution, when nothing is left to do, all connections are open, and no program has given up a subscription or refused a message: the messages
of a queue that the programs have got, on `C` of all their subscriptions together, and the messages stored in the queue are exactly the messages for the queue that took effect, each of them once.
`ps` are the messages got, each beside the one it is a copy of. The messages that took effect are, for each program, its SEND frames outside transactions or in transactions it has committed. -/
theorem C73_once {cfg : Server.Config} {s : State} (h : Spec.Reached cfg s) (hr : Spec.AtRest s.server)
    (hall : ∀ (c : Nat) (p : Peer) (k : Server.Conn), s.peers[c]? = some p → s.server.conns[c]? = some k → Spec.Settled p k ∧ Client.Spec.Distinct p.client ∧ Spec.Stays p ∧ Spec.Takes p)
    {d : Bytes} (hq : Server.Spec.IsQueue d) :
    (∃ ps : List (Frame × Server.Tag), ps.map (·.1) = s.peers.flatMap (Spec.gotFrom d) ∧ (∀ x ∈ ps, Server.Spec.CopyOf s.server x.2 x.1) ∧
      (ps.map (·.2) ++ Server.Spec.stored s.server d).Perm (Spec.allSent d s.server)) ∧
    (Spec.allSent d s.server).Nodup ∧
    ∀ (c : Nat) (p : Peer) (k : Server.Conn), s.peers[c]? = some p → s.server.conns[c]? = some k →
      ∃ ps : List (Nat × Nat), Server.Spec.Effects (p.hello :: Stomp.Spec.sentIn p.client.trace) ps ∧
        (Server.Spec.messages c 0 k.effective).map (·.frame) =
          ((Server.Spec.pick (p.hello :: Stomp.Spec.sentIn p.client.trace) ps).filter (fun f => decide (f.command = b!"SEND"))).map Stomp.Spec.asMessage := by
  have hinv := inv_reached h
  have hn := Server.none_back hinv.run hinv.alive (fun k hk => by
    obtain ⟨c, hck⟩ := List.getElem?_of_mem hk
    obtain ⟨p, hp⟩ := hinv.both hck
    obtain ⟨hs, _, hu, ht⟩ := hall c p k hp hck
    exact accepting h hr hp hck hs hu ht) d
  obtain ⟨hnd, _, hsub, hdis⟩ := Server.C63_order cfg s.events s.server hinv.run hinv.alive d hq hn
  have hord := Server.C36_order cfg s.events s.server hinv.run hinv.alive d hq hn
  have hdue : Server.Spec.due d s.server = [] := by unfold Server.Spec.due; rw [hr.deliveries]; rfl
  rw [hdue, List.append_nil, Server.putTags_enqueued hn] at hord
  have hord : (Server.Spec.observe (Server.Spec.handed d) cfg Server.Sys.init s.events).map (·.2) ++ Server.Spec.stored s.server d = Server.Spec.sentTo d cfg s.events := hord
  have hnd' := hnd
  rw [← hord, List.nodup_append] at hnd'
  have hhand : ∀ (c : Nat) (k : Server.Conn), s.server.conns[c]? = some k → ∀ t ∈ Server.Spec.writtenOn d k.out, t ∈ (Server.Spec.observe (Server.Spec.handed d) cfg Server.Sys.init s.events).map (·.2) :=
    fun c k hk t ht => (Server.handedTo_sublist d c cfg s.events).subset ((Server.C63_follows cfg s.events s.server hinv.run hinv.alive d hq c k hk).1.subset ht)
  obtain ⟨ps, h1, h2, h3⟩ := flatMap_pairs (f := Spec.gotFrom d) (g := fun k : Server.Conn => Server.Spec.writtenOn d k.out) (R := fun x => Server.Spec.CopyOf s.server x.2 x.1) hinv.len
    (fun c p k hp hk => by
      obtain ⟨hs, hd, hu, _⟩ := hall c p k hp hk
      exact got_written h hp hk hs hd hu d hq)
  refine ⟨⟨ps, h1, h3, (h2.append_right _).trans ?_⟩, allSent_nodup d s.server, ?_⟩
  · refine (List.perm_ext_iff_of_nodup ?_ (allSent_nodup d s.server)).2 (fun t => ⟨fun ht => ?_, fun ht => ?_⟩)
    · rw [List.nodup_append]
      refine ⟨nodup_flatMap_of (fun k hk => ?_) (fun i j k k' hne hk hk' => hdis i j k k' hne hk hk'), hnd'.2.1, fun a ha b hb => ?_⟩
      · obtain ⟨c, hck⟩ := List.getElem?_of_mem hk
        exact (hsub c k hck).nodup hnd
      · obtain ⟨k, hk, ha⟩ := List.mem_flatMap.1 ha
        obtain ⟨c, hck⟩ := List.getElem?_of_mem hk
        exact hnd'.2.2 a (hhand c k hck a ha) b hb
    · rw [mem_allSent]
      rcases List.mem_append.1 ht with ht | ht
      · obtain ⟨k, hk, ht⟩ := List.mem_flatMap.1 ht
        obtain ⟨c, hck⟩ := List.getElem?_of_mem hk
        rw [← pairs_snd] at ht
        obtain ⟨x, hx, rfl⟩ := List.mem_map.1 ht
        obtain ⟨_, _, h5, h6⟩ := (pairs_fst h hck d hq).2 x hx
        exact Server.copy_target h6 h5
      · obtain ⟨m, hm, rfl⟩ := List.mem_map.1 ht
        obtain ⟨_, hdest⟩ := (Server.addr_run hinv.run hinv.alive).store d m hm
        obtain ⟨k, o, e1, e2, e3, _, _, e6⟩ := (Server.origin_run hinv.run hinv.alive).store d m hm
        exact ⟨k, o, e1, e2, e3, (Server.others_value e6 (by decide)).symm.trans hdest⟩
    · obtain ⟨k, o, h4, h5, rfl, h6⟩ := mem_allSent.1 ht
      rcases queue_written h hr h4 h5 h6 hq with ⟨h7, _⟩ | ⟨c', k', w, h7, h8, h9⟩
      · exact List.mem_append_right _ h7
      · refine List.mem_append_left _ (List.mem_flatMap.2 ⟨k', List.mem_of_getElem? h7, List.mem_filterMap.2 ⟨w, h8, ?_⟩⟩)
        obtain ⟨g, hg, ⟨q, o', hq', ho, hot, _, _, hoth⟩, _⟩ := Server.written_run hinv.run hinv.alive c' k' h7 w h8 o.tag h9
        have : o' = o := by
          rw [h4] at hq'
          injection hq' with hq'; subst hq'
          exact Server.messages_inj ho h5 hot
        subst this
        unfold Server.Spec.writtenOf
        rw [hg]
        refine (if_pos ?_).trans h9
        exact (Server.others_value hoth (by decide)).trans h6
  · intro c p k hp hk
    obtain ⟨hsent, hhist⟩ := all_processed h hr hp hk (hall c p k hp hk).1
    obtain ⟨e1, e2, e3, e4, _⟩ := hr.conns k (List.mem_of_getElem? hk)
    obtain ⟨fs, ps, _, h2, h3, _, h5, _⟩ := C70_sender h hp hk (by rw [e4]; simp)
    rw [h2 e1, hhist, ← hsent] at h3 h5
    exact ⟨ps, h3, h5⟩

/-- **C73**, counted. -/
theorem C73_count {cfg : Server.Config} {s : State} (h : Spec.Reached cfg s) (hr : Spec.AtRest s.server)
    (hall : ∀ (c : Nat) (p : Peer) (k : Server.Conn), s.peers[c]? = some p → s.server.conns[c]? = some k → Spec.Settled p k ∧ Client.Spec.Distinct p.client ∧ Spec.Stays p ∧ Spec.Takes p)
    {d : Bytes} (hq : Server.Spec.IsQueue d) :
    (s.peers.flatMap (Spec.gotFrom d)).length + (Server.Spec.stored s.server d).length = (Spec.allSent d s.server).length := by
  obtain ⟨⟨ps, h1, _, h2⟩, _⟩ := C73_once h hr hall hq
  rw [← h1, ← h2.length_eq, List.length_append, List.length_map, List.length_map]

end Stomp.Joint

namespace Stomp.Joint.OnceEx
open Stomp Ex RestEx

def sendFrame (x : UInt8) : Frame := ⟨b!"SEND", [(b!"content-length", b!"1"), (b!"destination", b!"/queue/a")], [x]⟩
def subFrame : Frame := ⟨b!"SUBSCRIBE", [(b!"destination", b!"/queue/a"), (b!"ack", b!"client-individual"), (b!"id", b!"1")], []⟩
def message : Frame :=
  ⟨b!"MESSAGE", [(b!"content-length", b!"1"), (b!"destination", b!"/queue/a"), (b!"subscription", b!"1"), (b!"message-id", b!"1"), (b!"id", b!"1"), (b!"ack", b!"1")], [7]⟩

def send (x : UInt8) : List Ev :=
  [.client 0 0 (.call (.send b!"/queue/a" [] [x] [])), .client 0 0 (.thread (x.toNat - 7)), .client 0 0 (.thread (x.toNat - 7)), .client 0 0 (.loopWrite true []),
   .server 999 (.conn 0 (.recv (sendFrame x))), .server 0 (.conn 0 (.frame true true)), .server 0 (.flush 0), .server 0 .proc]
def subscribe : List Ev :=
  [.client 1 0 (.call (.subscribe b!"/queue/a" .clientIndividual [])), .client 1 0 (.thread 0), .client 1 0 (.thread 0), .client 1 0 (.loopWrite true []),
   .server 999 (.conn 1 (.recv subFrame)), .server 0 (.conn 1 (.frame true true)), .server 0 (.flush 1), .server 0 .proc]
def arrives : List Ev :=
  [.server 0 .push, .server 0 (.conn 1 (.sub true)), .client 1 999 (.net (some message)), .client 1 0 (.loopRead []), .client 1 0 (.deliver true), .client 1 0 (.sub 0)]

/-- Two messages for a subscription which takes one at a time. -/
def run : List Ev := joins 0 ++ joins 1 ++ subscribe ++ send 7 ++ arrives ++ send 8

theorem sane_run : ∀ e ∈ run, Spec.Sane e := by
  intro e he
  simp only [run, joins, subscribe, send, arrives, List.mem_append, List.mem_cons, List.not_mem_nil, or_false] at he
  have hh : hello.command = b!"CONNECT" ∧ Stomp.Spec.WellFormed hello := ⟨by decide +kernel, EndToEndEx.hello_wf⟩
  rcases he with ((((he | he) | he) | he) | he) | he
  · rcases he with rfl | rfl | rfl | rfl | rfl | rfl <;> first | exact hh | exact trivial
  · rcases he with rfl | rfl | rfl | rfl | rfl | rfl <;> first | exact hh | exact trivial
  · rcases he with rfl | rfl | rfl | rfl | rfl | rfl | rfl | rfl <;> first | exact trivial | (intro k v hv; simp at hv)
  · rcases he with rfl | rfl | rfl | rfl | rfl | rfl | rfl | rfl <;> first | exact trivial | exact ⟨by simp, by decide, by simp⟩
  · rcases he with rfl | rfl | rfl | rfl | rfl | rfl <;> exact trivial
  · rcases he with rfl | rfl | rfl | rfl | rfl | rfl | rfl | rfl <;> first | exact trivial | exact ⟨by simp, by decide, by simp⟩

theorem reached_run : Spec.Reached Server.sampleCfg (after run) := ⟨⟨run, run_after (by decide +kernel), sane_run⟩, by decide +kernel⟩

def took (p : Peer) : Bool := p.client.trace.all (fun e => match e with | .accepted _ r => decide (r.frame.command ≠ b!"NACK") | _ => true)

theorem takes {p : Peer} (h : took p = true) : Spec.Takes p := by
  intro t r hm
  exact of_decide_eq_true (List.all_eq_true.1 h _ hm)

theorem run_all : ∀ (c : Nat) (p : Peer) (k : Server.Conn), (after run).peers[c]? = some p → (after run).server.conns[c]? = some k →
    Spec.Settled p k ∧ Client.Spec.Distinct p.client ∧ Spec.Stays p ∧ Spec.Takes p := by
  intro c p k hp hk
  obtain ⟨h1, h2, h3⟩ := (quiet_of (s := after run) (by decide +kernel)).2 c p k hp hk
  have h4 : (after run).peers.all took = true := by decide +kernel
  exact ⟨h1, h2, h3, takes (List.all_eq_true.1 h4 p (List.mem_of_getElem? hp))⟩

-- C73_none_back: two connections, one message handed out, one stored.
example : (∀ k ∈ (after run).server.conns, Server.Spec.Accepting k) ∧ (after run).server.crashed = false ∧
    (Server.Spec.observe (Server.Spec.asked b!"/queue/a") Server.sampleCfg Server.Sys.init (after run).events).length = 3 := by
  refine ⟨fun k hk => ?_, by decide +kernel, by decide +kernel⟩
  have h : (after run).server.conns.all (fun k => decide (k.stage = .run) && k.hist.all (fun f => decide (f.command ≠ b!"NACK" ∧ f.command ≠ b!"UNSUBSCRIBE"))) = true := by decide +kernel
  have h := List.all_eq_true.1 h k hk
  simp only [Bool.and_eq_true] at h
  exact ⟨of_decide_eq_true h.1, fun f hf => of_decide_eq_true (List.all_eq_true.1 h.2 f hf)⟩

-- C73_once, C73_count: of two messages, one has arrived and one is stored.
example : Spec.AtRest (after run).server ∧ (after run).peers.flatMap (Spec.gotFrom b!"/queue/a") = [message] ∧
    Server.Spec.stored (after run).server b!"/queue/a" = [⟨0, 1⟩] ∧ Spec.allSent b!"/queue/a" (after run).server = [⟨0, 0⟩, ⟨0, 1⟩] :=
  ⟨(quiet_of (by decide +kernel)).1, by decide +kernel, by decide +kernel, by decide +kernel⟩

example : ((after run).peers.flatMap (Spec.gotFrom b!"/queue/a")).length + (Server.Spec.stored (after run).server b!"/queue/a").length = (Spec.allSent b!"/queue/a" (after run).server).length :=
  C73_count reached_run (quiet_of (by decide +kernel)).1 run_all (by unfold Server.Spec.IsQueue; decide +kernel)

end Stomp.Joint.OnceEx
