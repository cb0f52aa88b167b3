import Verif.Spec.Lifecycle
import Verif.Proofs.Client.Conversation
import Verif.Proofs.Client.Refused
import Verif.Proofs.Client.Read
import Verif.Proofs.Codec
import Verif.Proofs.Client.Library
import Verif.Props.Client.Order
import Verif.Props.Client.Messages
/-! # C96: a subscription ends once, and asks the server to end it at most once -/
namespace Stomp.Client
open Stomp

theorem eqv_state {b b' : Sub} (h : Eqv b b') : b'.state = b.state := by cases h <;> rfl

theorem rstep_state {s : Sys} {b b' : Sub} (h : RStep s b b') : b'.state = b.state ∨ b'.state = .closed := by
  cases h with
  | @closeNext p p' c hr h => exact (cnext_state h : c.state = b.state ∨ c.state = .closed)
  | @closeFin p c hr h => exact .inl (cfin_state h : c.state = b.state)
  | _ => exact .inl rfl

theorem tstep_state {cfg : Cfg} {b b' : Sub} {p p' : Pc} {k k' : HPc} (h : TStep cfg b p k b' p' k') : b'.state = b.state ∨ b'.state = .closed := by
  cases h with
  | closeNext h => exact cnext_state h
  | closeFin h => exact .inl (cfin_state h)
  | _ => exact .inl rfl

theorem stage_le {a b : SubState} (h : b = a ∨ b = .closed) : Spec.stage a ≤ Spec.stage b := by
  rcases h with rfl | rfl
  · exact Nat.le_refl _
  · cases a <;> decide

theorem stage_step {cfg : Cfg} {s s' : Sys} (hd : Dom s) (h : Step cfg s s') {i : Nat} {b : Sub} (hb : s.subs[i]? = some b) :
    ∃ b', s'.subs[i]? = some b' ∧ b'.id = b.id ∧ Spec.stage b.state ≤ Spec.stage b'.state := by
  obtain ⟨b', hb', hid, _⟩ := (ext_step h).subs i b hb
  refine ⟨b', hb', hid, ?_⟩
  have other : s'.subs[i]? = s.subs[i]? → Spec.stage b.state ≤ Spec.stage b'.state := by
    intro e
    rw [hb', hb] at e; cases e
    exact Nat.le_refl _
  cases ueff_step hd h with
  | quiet _ hs =>
    rcases hs i b' hb' with ⟨b0, h0, he⟩ | ⟨hl, _⟩
    · rw [hb] at h0; cases h0
      exact stage_le (.inl (eqv_state he))
    · have := (List.getElem?_eq_some_iff.1 hb).1
      omega
  | @rl j c c' _ hc hc' hs hr =>
    by_cases e : i = j
    · subst e
      rw [hb] at hc; cases hc
      rw [hb'] at hc'; cases hc'
      exact stage_le (rstep_state hr)
    · exact other (hs i e)
  | @cas t j c pc _ _ _ hc hc' hs hst =>
    by_cases e : i = j
    · subst e
      rw [hb] at hc; cases hc
      rw [hst]; exact Nat.zero_le _
    · exact other (hs i e)
  | @thr t j c c' pc pc' k k' _ _ _ hc hc' hs ht =>
    by_cases e : i = j
    · subst e
      rw [hb] at hc; cases hc
      rw [hb'] at hc'; cases hc'
      exact stage_le (tstep_state ht)
    · exact other (hs i e)

theorem uinv_from {cfg : Cfg} {s s' : Sys} {es : List Ev} (hi : UInv s) (h : s.run cfg es = some s') : UInv s' :=
  run_induction (P := UInv) (fun _ _ _ hp h => uinv_step hp (step_cases h).2) es _ _ hi h

theorem uinv_life {cfg : Cfg} {n : Nat} {s : Sys} {es : List Ev} (h : (Sys.init n).run cfg es = some s) : UInv s := uinv_from (uinv_init n) h

/-- **C96.** Whatever happens, a subscription stays what it is and its state only moves on, from active by closing to closed or from active to closed: once `Active` has
returned false it never returns true again. -/
theorem C96_forward {cfg : Cfg} {n : Nat} {es es' : List Ev} {s s' : Sys} (h : (Sys.init n).run cfg es = some s) (h' : s.run cfg es' = some s')
    {i : Nat} {b : Sub} (hb : s.subs[i]? = some b) : ∃ b', s'.subs[i]? = some b' ∧ b'.id = b.id ∧ Spec.stage b.state ≤ Spec.stage b'.state := by
  refine (run_induction (P := fun x => UInv x ∧ ∃ b', x.subs[i]? = some b' ∧ b'.id = b.id ∧ Spec.stage b.state ≤ Spec.stage b'.state)
    (fun x e x' hp hx => ?_) es' _ _ ⟨uinv_life h, b, hb, rfl, Nat.le_refl _⟩ h').2
  have hs := (step_cases hx).2
  obtain ⟨hu, c, hc, h1, h2⟩ := hp
  obtain ⟨c', hc', h3, h4⟩ := stage_step hu.dom hs hc
  exact ⟨uinv_step hu hs, c', hc', h3.trans h1, Nat.le_trans h2 h4⟩

theorem won_of_ending {s : Sys} {t i : Nat} (h : Spec.UnsubCall s t i) (hb : ¬Spec.Barred s t) : ∃ p k, s.won t = some (i, p, k) := by
  obtain ⟨th, o, ht, hc⟩ := h
  exact ⟨_, _, won_of ht hc (fun e => hb ⟨th, ht, .inl e⟩) (fun e => hb ⟨th, ht, .inr e⟩)⟩

theorem ending_of_won {s : Sys} {t i : Nat} {p : Pc} {k : HPc} (h : s.won t = some (i, p, k)) : Spec.UnsubCall s t i ∧ ¬Spec.Barred s t := by
  unfold Sys.won at h
  cases ht : s.threads[t]? with
  | none => rw [ht] at h; cases h
  | some th =>
    rw [ht] at h
    simp only [Option.bind_some, Thread.won] at h
    split at h
    · rename_i j o hc
      split at h
      · cases h
      · rename_i hp
        cases h
        refine ⟨⟨th, o, ht, hc⟩, ?_⟩
        rintro ⟨th', ht', hp'⟩
        rw [ht] at ht'; cases ht'
        exact hp hp'
    · cases h

/-- **C96.** Of all the calls of `Unsubscribe` on one subscription, from any goroutines, at most one gets anywhere: every other one has not begun or has returned
`ErrCompletedSubscription`. While the subscription is active none has got anywhere. -/
theorem C96_one {cfg : Cfg} {n : Nat} {es : List Ev} {s : Sys} (h : (Sys.init n).run cfg es = some s) {t i : Nat} (ht : Spec.UnsubCall s t i) (hb : ¬Spec.Barred s t) :
    (∀ u, Spec.UnsubCall s u i → u ≠ t → Spec.Barred s u) ∧ ∃ b, s.subs[i]? = some b ∧ b.state ≠ .active := by
  have hu := uinv_life h
  obtain ⟨p, k, hw⟩ := won_of_ending ht hb
  refine ⟨fun u hu1 hne => ?_, ?_⟩
  · refine Classical.byContradiction fun hub => ?_
    obtain ⟨q, l, hw'⟩ := won_of_ending hu1 hub
    exact hne (hu.one u t i q p l k hw' hw)
  · obtain ⟨b, hb⟩ := won_sub hu.dom hw
    exact ⟨b, hb, (hu.held t i p k b hw hb).act (by simp)⟩

/-- **C96.** A subscription is in the state "closing" only because of a call of `Unsubscribe` that got past the compare-and-swap. -/
theorem C96_closing {cfg : Cfg} {n : Nat} {es : List Ev} {s : Sys} (h : (Sys.init n).run cfg es = some s) {i : Nat} {b : Sub} (hb : s.subs[i]? = some b)
    (hst : b.state = .closing) : ∃ t, Spec.UnsubCall s t i ∧ ¬Spec.Barred s t := by
  suffices hk : ∃ t p k, s.won t = some (i, p, k) by
    obtain ⟨t, p, k, hw⟩ := hk
    exact ⟨t, ending_of_won hw⟩
  refine (run_induction (P := fun x => UInv x ∧ ∀ (j : Nat) (c : Sub), x.subs[j]? = some c → c.state = .closing → ∃ t p k, x.won t = some (j, p, k))
    (fun x e x' hp hx => ?_) es _ _ ⟨uinv_init n, fun j c hc => by simp [Sys.init] at hc⟩ h).2 i b hb hst
  have hs := (step_cases hx).2
  obtain ⟨hu, hp⟩ := hp
  refine ⟨uinv_step hu hs, ?_⟩
  intro j c' hc' hcl
  cases ueff_step hu.dom hs with
  | quiet ht hss =>
    rcases hss j c' hc' with ⟨c, h0, he⟩ | ⟨_, _, _, _, _, rfl⟩
    · obtain ⟨t, p, k, hw⟩ := hp j c h0 ((eqv_state he).symm.trans hcl)
      exact ⟨t, p, k, (ht t).trans hw⟩
    · cases hcl
  | @rl m c0 c1 ht h0 h1 hss hr =>
    by_cases e : j = m
    · subst e
      rw [hc'] at h1; cases h1
      rcases rstep_state hr with e | e
      · obtain ⟨t, p, k, hw⟩ := hp j c0 h0 (e.symm.trans hcl)
        exact ⟨t, p, k, (ht t).trans hw⟩
      · rw [hcl] at e; cases e
    · obtain ⟨t, p, k, hw⟩ := hp j c' ((hss j e).symm.trans hc') hcl
      exact ⟨t, p, k, (ht t).trans hw⟩
  | @cas u m c0 pc ht ht' hwb h0 h1 hss =>
    by_cases e : j = m
    · subst e; exact ⟨u, _, _, ht'⟩
    · obtain ⟨t, p, k, hw⟩ := hp j c' ((hss j e).symm.trans hc') hcl
      by_cases e' : t = u
      · subst e'; rw [ht] at hw; cases hw
      · exact ⟨t, p, k, (hwb t e').trans hw⟩
  | @thr u m c0 c1 pc pc' k k' ht ht' hwb h0 h1 hss =>
    by_cases e : j = m
    · subst e; exact ⟨u, _, _, ht'⟩
    · obtain ⟨t, p, k, hw⟩ := hp j c' ((hss j e).symm.trans hc') hcl
      by_cases e' : t = u
      · subst e'
        rw [ht] at hw
        simp only [Option.some.injEq, Prod.mk.injEq] at hw
        exact absurd hw.1.symm e
      · exact ⟨t, p, k, (hwb t e').trans hw⟩

/-- **C96.** An `Unsubscribe` that begins when the subscription is no longer active, because of another call or because the server or the connection has ended it, does
nothing but return `ErrCompletedSubscription`: no request of it is ever handed over. -/
theorem C96_late {cfg : Cfg} {n : Nat} {es es' : List Ev} {s s' : Sys} (h : (Sys.init n).run cfg es = some s) (h' : s.run cfg es' = some s')
    {i : Nat} {b : Sub} (hb : s.subs[i]? = some b) (hst : b.state ≠ .active) {t : Nat} (hnew : ∀ th, s.threads[t]? = some th → th.pc = .start)
    (ht : Spec.UnsubCall s' t i) : Spec.Barred s' t ∧ ∀ r, .accepted t r ∉ s'.trace := by
  have hrun : (Sys.init n).run cfg (es ++ es') = some s' := by rw [sys_run_append, h]; exact h'
  have key : ∀ p k, s'.won t ≠ some (i, p, k) := by
    refine (run_induction (P := fun x => UInv x ∧ (∃ c, x.subs[i]? = some c ∧ c.state ≠ .active) ∧ ∀ p k, x.won t ≠ some (i, p, k))
      (fun x e x' hp hx => ?_) es' _ _ ⟨uinv_life h, ⟨b, hb, hst⟩, fun p k hw => ?_⟩ h').2.2
    · have hs := (step_cases hx).2
      obtain ⟨hu, ⟨c, hc, hca⟩, hno⟩ := hp
      refine ⟨uinv_step hu hs, ?_, ?_⟩
      · obtain ⟨c', hc', _, hle⟩ := stage_step hu.dom hs hc
        refine ⟨c', hc', fun e => ?_⟩
        rw [e] at hle
        revert hca hle
        cases c.state <;> simp [Spec.stage]
      · intro p k hw
        cases ueff_step hu.dom hs with
        | quiet hq => exact hno p k ((hq t).symm.trans hw)
        | rl hq => exact hno p k ((hq t).symm.trans hw)
        | @cas u m c0 pc hq hq' hwb h0 h1 hss hact =>
          by_cases e : t = u
          · subst e
            rw [hq'] at hw
            simp only [Option.some.injEq, Prod.mk.injEq] at hw
            have e := hw.1
            subst e
            rw [hc] at h0; cases h0
            exact hca hact
          · exact hno p k ((hwb t e).symm.trans hw)
        | @thr u m c0 c1 pc pc' k1 k2 hq hq' hwb =>
          by_cases e : t = u
          · subst e
            rw [hq'] at hw
            simp only [Option.some.injEq, Prod.mk.injEq] at hw
            exact hno pc k1 (by rw [hq, hw.1])
          · exact hno p k ((hwb t e).symm.trans hw)
    · obtain ⟨⟨th, o, ht, _⟩, hnb⟩ := ending_of_won hw
      exact hnb ⟨th, ht, .inl (hnew th ht)⟩
  have hbar : Spec.Barred s' t := by
    refine Classical.byContradiction fun hn => ?_
    obtain ⟨p, k, hw⟩ := won_of_ending ht hn
    exact key p k hw
  refine ⟨hbar, fun r hr => ?_⟩
  obtain ⟨th, o, hth, hc⟩ := ht
  obtain ⟨th', hth', hp⟩ := hbar
  rw [hth] at hth'; cases hth'
  exact heard_run hrun t r th i o (acceptedIn_mem hr) hth hc (won_none hth (.inr hp))

/-- **C96.** At most one request to end a subscription is handed over. -/
theorem C96_once {cfg : Cfg} {n : Nat} {es : List Ev} {s : Sys} (h : (Sys.init n).run cfg es = some s) {i t u : Nat} {r r' : Req} (ht : Spec.UnsubCall s t i)
    (hu : Spec.UnsubCall s u i) (hr : .accepted t r ∈ s.trace) (hr' : .accepted u r' ∈ s.trace) : t = u ∧ r = r' := by
  have won : ∀ (v : Nat) (q : Req), Spec.UnsubCall s v i → .accepted v q ∈ s.trace → ∃ p k, s.won v = some (i, p, k) := by
    intro v q hv hq
    obtain ⟨th, o, hth, hc⟩ := hv
    refine won_of_ending ⟨th, o, hth, hc⟩ ?_
    rintro ⟨th', hth', hp⟩
    rw [hth] at hth'; cases hth'
    exact heard_run h v q th i o (acceptedIn_mem hq) hth hc (won_none hth (.inr hp))
  obtain ⟨p, k, hw⟩ := won t r ht hr
  obtain ⟨q, l, hw'⟩ := won u r' hu hr'
  have e := (uinv_life h).one t u i p q k l hw hw'
  subst e
  exact ⟨rfl, (all_run h).origin.one (acceptedIn_mem hr) (acceptedIn_mem hr')⟩

theorem filterMap_one {α β : Type} {g : α → Option β} {f : α → Nat} : ∀ {l : List α}, (l.map f).Nodup →
    (∀ x ∈ l, ∀ y ∈ l, g x ≠ none → g y ≠ none → f x = f y) → (l.filterMap g).length ≤ 1
  | [], _, _ => Nat.zero_le _
  | x :: l, hn, hg => by
    rw [List.map_cons, List.nodup_cons] at hn
    have ih := filterMap_one (g := g) hn.2 (fun a ha b hb => hg a (List.mem_cons_of_mem _ ha) b (List.mem_cons_of_mem _ hb))
    cases hx : g x with
    | none => rw [List.filterMap_cons_none hx]; exact ih
    | some y =>
      rw [List.filterMap_cons_some hx]
      have : l.filterMap g = [] := by
        rw [List.filterMap_eq_nil_iff]
        intro z hz
        refine Classical.byContradiction fun hne => hn.1 ?_
        rw [hg x (List.mem_cons_self ..) z (List.mem_cons_of_mem _ hz) (by rw [hx]; simp) hne]
        exact List.mem_map.2 ⟨z, hz, rfl⟩
      rw [this]
      exact Nat.le_refl _

/-- Two subscriptions that have been asked for are different in their ids, if the library chose them. -/
theorem started_inj {s : Sys} (hd : Spec.Distinct s) (ho : OriginInv s) (hi : SubInv s) {i j : Nat} {b c : Sub} (hb : s.subs[i]? = some b) (hc : s.subs[j]? = some c)
    (hsb : Started (acceptedIn s.trace) b) (hsc : Started (acceptedIn s.trace) c) (he : b.id = c.id) : i = j := by
  obtain ⟨t, r, h1, h2, h3, _⟩ := hsb
  obtain ⟨u, q, k1, k2, k3, _⟩ := hsc
  obtain ⟨_, e1, _⟩ := chan_sub ho hi hb h1 h3
  obtain ⟨_, e2, _⟩ := chan_sub ho hi hc k1 k3
  have := hd.uniq t r u q b.id (mem_acceptedIn h1) (mem_acceptedIn k1) (by rw [h3]; simp) (by rw [k3]; simp) (.inr ⟨h2, e1⟩) (.inr ⟨k2, e2.trans he.symm⟩)
  subst this
  have := ho.one h1 k1
  subst this
  rw [h3] at k3
  obtain ⟨x, hx, hxo⟩ := hi.chan i b hb
  obtain ⟨y, hy, hyo⟩ := hi.chan j c hc
  rw [← Option.some.inj k3, hx] at hy
  cases hy
  rw [hxo] at hyo
  cases hyo
  rfl

/-- **C96.** If no two subscriptions have been given the same id (which is so if the ids are left to the library), the client writes at most one UNSUBSCRIBE with a given id,
however many goroutines call `Unsubscribe` how often. -/
theorem C96_wire {cfg : Cfg} {n : Nat} {es : List Ev} {s : Sys} (h : (Sys.init n).run cfg es = some s) (hd : Spec.Distinct s) (k : Bytes) :
    (Spec.unsubscribes k (Spec.written s)).length ≤ 1 := by
  have ha := all_run h
  have hf := flow_run h
  have hui := unsub_inv_run h
  obtain ⟨out, rest, h1, h2⟩ := C21_prefix h
  have h1' : (acceptedIn s.trace).map (·.2) = out ++ rest := by rw [← h1, ← handedIn_acc]; rfl
  obtain ⟨l1, l2, e1, e2, _⟩ := List.map_eq_append_iff.1 h1'
  unfold Spec.unsubscribes
  rw [h2, ← e2, List.filterMap_map, List.filter_filterMap]
  refine filterMap_one (f := (·.1)) ?_ ?_
  · have := ha.origin.nodup
    rw [e1, List.map_append] at this
    exact (List.nodup_append.1 this).1
  · have key : ∀ x ∈ l1, (((fun r : Req => Spec.wire r.frame) ∘ (·.2)) x).filter (fun f => decide (f.command = b!"UNSUBSCRIBE" ∧ Stomp.Spec.firstValue f.header b!"id" = some k)) ≠ none →
        ∃ i b, Spec.UnsubCall s x.1 i ∧ s.subs[i]? = some b ∧ b.id = k ∧ Started (acceptedIn s.trace) b := by
      rintro ⟨t, r⟩ hx hne
      obtain ⟨g, hg⟩ := Option.ne_none_iff_exists'.1 hne
      obtain ⟨hw, hp⟩ := Option.filter_eq_some_iff.1 hg
      have hw : Spec.wire r.frame = some g := hw
      obtain ⟨hc, hid⟩ := of_decide_eq_true hp
      rw [← Stomp.contains_eq_firstValue] at hid
      have hc : r.frame.command = Cmd.unsubscribe := (wire_command hw).symm.trans hc
      have hm : (t, r) ∈ acceptedIn s.trace := by rw [e1]; exact List.mem_append_left _ hx
      obtain ⟨th, ht, hq⟩ := ha.origin.acc t r hm
      by_cases hcs : ∃ d a o, th.call = .subscribe d a o
      · obtain ⟨d, a, o, hcs⟩ := hcs
        rw [hcs] at hq
        obtain ⟨_, _, _, _, _, _, _, _, _, _, _, hf⟩ := hq
        rw [(subscribe_key hf).1] at hc; cases hc
      · have hff := ((reqOf_caller (fun d a o h => hcs ⟨d, a, o, h⟩)).1 hq).1
        obtain ⟨i, o, hcu⟩ := frameOf_unsubscribe hff hc
        rw [hcu] at hff
        obtain ⟨b, hb1, hb2⟩ := hff
        obtain ⟨b2, hb3, hst⟩ := hui.call t th i o ht hcu
        rw [hb1] at hb3; cases hb3
        refine ⟨i, b, ⟨th, o, ht, hcu⟩, hb1, ?_, hst⟩
        have := (unsubscribe_wire hb2 hw).2
        exact Option.some.inj (this.symm.trans hid)
    intro x hx y hy hgx hgy
    obtain ⟨i, b, he, hb, hbk, hbs⟩ := key x hx hgx
    obtain ⟨j, c, he', hc, hck, hcs⟩ := key y hy hgy
    have hij := started_inj hd ha.origin hf.sub hb hc hbs hcs (hbk.trans hck.symm)
    subst hij
    have m : ∀ z ∈ l1, .accepted z.1 z.2 ∈ s.trace := fun z hz => mem_acceptedIn (by rw [e1]; exact List.mem_append_left _ hz)
    exact (C96_once h he he' (m x hx) (m y hy)).1

/-- **C96.** So it is if all ids are left to the library. -/
theorem C96_library {cfg : Cfg} {n : Nat} {es : List Ev} {s : Sys} (h : (Sys.init n).run cfg es = some s) (hl : Spec.library cfg [] (Sys.init n) es = true) (k : Bytes) :
    (Spec.unsubscribes k (Spec.written s)).length ≤ 1 := C96_wire h (lib_distinct h hl) k

/-! ## Examples -/

namespace LifeEx

/-- Three goroutines call `Unsubscribe` on one subscription; a second subscription is ended by an ERROR and `Unsubscribe` called on it afterwards. -/
def race : List Ev :=
  [.call (.subscribe b!"/q" .auto []), .thread 0, .thread 0, .loopWrite true [],
   .call (.subscribe b!"/r" .auto []), .thread 1, .thread 1, .loopWrite true [],
   .call (.unsubscribe 0 []), .call (.unsubscribe 0 []), .call (.unsubscribe 0 []),
   .thread 3, .thread 2, .thread 3, .thread 3, .loopWrite true [], .thread 4]

def raced : Sys := ((Sys.init 0).run Ex.cfg race).getD (Sys.init 0)
theorem race_run : (Sys.init 0).run Ex.cfg race = some raced := by decide +kernel

def stopped : List Ev :=
  [.net (some (Frame.new Cmd.error [])), .loopRead [0, 1], .deliver true, .deliver true, .sub 1, .sub 1, .sub 1, .sub 1, .sub 1, .sub 1, .finish]

def over : Sys := (raced.run Ex.cfg stopped).getD (Sys.init 0)
theorem stopped_run : raced.run Ex.cfg stopped = some over := by decide +kernel

def tooLate : List Ev := [.call (.unsubscribe 1 []), .thread 5]

def last : Sys := (over.run Ex.cfg tooLate).getD (Sys.init 0)
theorem last_run : over.run Ex.cfg tooLate = some last := by decide +kernel

/-- Two subscriptions with one id, chosen by the program. -/
def twice : List Ev :=
  [.call (.subscribe b!"/q" .auto [.id b!"a"]), .thread 0, .thread 0, .call (.subscribe b!"/r" .auto [.id b!"a"]), .thread 1, .thread 1,
   .loopWrite true [], .loopWrite true [], .call (.unsubscribe 0 []), .thread 2, .thread 2, .thread 2, .loopWrite true [],
   .call (.unsubscribe 1 []), .thread 3, .thread 3, .thread 3, .loopWrite true []]

def doubled : Sys := ((Sys.init 0).run Ex.cfg twice).getD (Sys.init 0)
theorem twice_run : (Sys.init 0).run Ex.cfg twice = some doubled := by decide +kernel

end LifeEx

example : Spec.library Ex.cfg [] (Sys.init 0) LifeEx.race = true := by decide +kernel
-- Call 3 gets through, calls 2 and 4 are told that the subscription is complete, and one UNSUBSCRIBE is written.
example : LifeEx.raced.threads.map (·.pc) = [.ret .ok, .ret .ok, .ret .completedSubscription, .subLock .ok, .ret .completedSubscription] := by decide +kernel
example : LifeEx.raced.subs.map (·.state) = [.closing, .active] ∧ (Spec.unsubscribes b!"1" (Spec.written LifeEx.raced)).length = 1 ∧
    (Spec.unsubscribes b!"2" (Spec.written LifeEx.raced)).length = 0 := by decide +kernel
example : Spec.UnsubCall LifeEx.raced 3 0 ∧ ¬Spec.Barred LifeEx.raced 3 := by
  refine ⟨⟨(LifeEx.raced.threads[3]?).getD ⟨.disconnect, .start, .none⟩, [], by decide +kernel, by decide +kernel⟩, ?_⟩
  rintro ⟨th, h1, h2⟩
  have h : LifeEx.raced.threads[3]? = some ⟨.unsubscribe 0 [], .subLock .ok, .none⟩ := by decide +kernel
  rw [h] at h1; cases h1
  rcases h2 with h2 | h2 <;> cases h2
-- The second subscription is closed by the ERROR, without a call of `Unsubscribe`; a call afterwards has no effect.
example : LifeEx.over.subs.map (·.state) = [.closing, .closed] ∧ LifeEx.over.threads.length = 5 := by decide +kernel
example : LifeEx.last.threads[5]?.map (·.pc) = some (.ret .completedSubscription) ∧ LifeEx.last.trace.filterMap (fun o => match o with | .accepted t _ => some t | _ => none) = [0, 1, 3] := by
  decide +kernel
example : Spec.Barred LifeEx.last 5 ∧ ∀ r, .accepted 5 r ∉ LifeEx.last.trace :=
  C96_late (es := LifeEx.race ++ LifeEx.stopped) (n := 0) (i := 1) (b := (LifeEx.over.subs[1]?).getD (Sub.new [] false 0))
    (by rw [sys_run_append, LifeEx.race_run]; exact LifeEx.stopped_run) LifeEx.last_run (by decide +kernel) (by decide +kernel)
    (fun th h => by rw [show LifeEx.over.threads[5]? = none by decide +kernel] at h; cases h)
    ⟨(LifeEx.last.threads[5]?).getD ⟨.disconnect, .start, .none⟩, [], by decide +kernel, by decide +kernel⟩
-- With one id for two subscriptions, chosen by the program, there are two UNSUBSCRIBE with that id: the hypothesis of `C96_wire` is needed.
example : (Spec.unsubscribes b!"a" (Spec.written LifeEx.doubled)).length = 2 ∧ Spec.library Ex.cfg [] (Sys.init 0) LifeEx.twice = false := by decide +kernel

end Stomp.Client
