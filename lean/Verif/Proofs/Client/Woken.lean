import Verif.Proofs.Client.UnsubInv
/-! # Whoever is woken finds the subscription closed -/
namespace Stomp.Client
open Stomp

structure SubWoken (b : Sub) : Prop where
  once : b.notified = 0 ∨ b.once = .done
  rl : b.rl = .done → b.state = .closed

/-- Woken, or past the wait. -/
def Woke (p : Pc) (h : HPc) : Prop := p = .relock ∨ h = .relock ∨ h = .done

structure WokenInv (s : Sys) : Prop where
  sub : ∀ (i : Nat) (b : Sub), s.subs[i]? = some b → SubWoken b
  woke : ∀ (t i : Nat) (p : Pc) (h : HPc) (b : Sub), s.won t = some (i, p, h) → s.subs[i]? = some b → Woke p h → b.once = .done

theorem woken_init (n : Nat) : WokenInv (Sys.init n) :=
  ⟨by intro i b hb; simp [Sys.init] at hb, by intro t i p h b ht; simp [Sys.won, Sys.init] at ht⟩

theorem SubWoken.eqv {b b' : Sub} (h : SubWoken b) (he : Eqv b b') : SubWoken b' ∧ b'.once = b.once := by
  cases he <;> exact ⟨⟨h.once, h.rl⟩, rfl⟩

theorem CNext.once {b b' : Sub} {p p' : ClosePc} (h : CNext b p b' p') : (b.once = .done → b'.once = .done) ∧ b'.notified = b.notified ∧ b'.rl = b.rl ∧ (b.state = .closed → b'.state = .closed) := by
  cases h <;> simp_all

theorem SubWoken.next {b b' : Sub} {p p' : ClosePc} (h : SubWoken b) (hn : CNext b p b' p') : SubWoken b' := by
  obtain ⟨h1, h2, h3, h4⟩ := hn.once
  exact ⟨by rw [h2]; exact h.once.imp id h1, by rw [h3]; exact fun e => h4 (h.rl e)⟩

theorem SubWoken.step {s : Sys} {b b' : Sub} (h : SubWoken b) {w : Option (Pc × HPc)} (hk : SubOk b w) (hr : RStep s b b') : SubWoken b' ∧ (b.once = .done → b'.once = .done) := by
  cases hr with
  | recv ha hr ho =>
    refine ⟨⟨h.once, fun e => ?_⟩, id⟩
    unfold Sys.rlRecv at e
    repeat' split at e
    all_goals cases e
  | eof => exact ⟨⟨h.once, fun e => by cases e⟩, id⟩
  | put => exact ⟨⟨h.once, fun e => by cases e⟩, id⟩
  | checkClosed hr hs => exact ⟨⟨h.once, fun _ => hs⟩, id⟩
  | checkOpen => exact ⟨⟨h.once, fun e => by cases e⟩, id⟩
  | closeNext hr hn => exact ⟨⟨(h.next hn).once, fun e => by cases e⟩, hn.once.1⟩
  | @closeFin p b' hr hf =>
    have hc : b'.once = .done ∧ b'.state = .closed := by
      have ho := hk.once
      rw [hr] at ho
      cases hf with
      | skip hd =>
        refine ⟨hd, ?_⟩
        rcases ho with ⟨_, ho⟩ | ⟨_, ho⟩ <;> unfold OnceOk at ho <;> rw [hd] at ho <;> split at ho <;> simp_all
      | broadcast =>
        refine ⟨rfl, ?_⟩
        rcases ho with ⟨ho, _⟩ | ⟨_, ho⟩
        · cases ho
        · simp only [RlPc.at?, ClosePc.inside, if_true] at ho
          unfold OnceOk at ho
          split at ho <;> simp_all
    exact ⟨⟨.inr hc.1, fun _ => hc.2⟩, fun _ => hc.1⟩

theorem SubWoken.thr {cfg : Cfg} {b b' : Sub} {pc pc' : Pc} {h h' : HPc} (hb : SubWoken b) (hw : Woke pc h → b.once = .done) (hk : SubOk b (some (pc, h)))
    (ht : TStep cfg b pc h b' pc' h') : SubWoken b' ∧ (b.once = .done → b'.once = .done) ∧ (Woke pc' h' → b'.once = .done) := by
  have key : ∀ k, k < b.notified → b.once = .done := by
    intro k hk
    rcases hb.once with h | h
    · omega
    · exact h
  cases ht with
  | move hp hp' => exact ⟨hb, id, fun e => hw (e.elim (fun e => by rw [e] at hp'; cases hp') .inr)⟩
  | closeNext hc => exact ⟨hb.next hc, hc.once.1, fun e => hc.once.1 (hw (e.elim (fun e => by cases e) .inr))⟩
  | closeFin hc =>
    cases hc with
    | skip hd => exact ⟨hb, id, fun _ => hd⟩
    | broadcast => exact ⟨⟨.inr rfl, hb.rl⟩, fun _ => rfl, fun _ => rfl⟩
  | wake hl => exact ⟨hb, id, fun _ => key _ hl⟩
  | hWake hl => exact ⟨hb, id, fun _ => key _ hl⟩
  | timed => exact ⟨hb, id, fun e => by rcases e with e | e | e <;> cases e⟩
  | relock => exact ⟨⟨hb.once, hb.rl⟩, id, fun _ => hw (.inl rfl)⟩
  | hRelock => exact ⟨⟨hb.once, hb.rl⟩, id, fun _ => hw (.inr (.inl rfl))⟩
  | hSleep => exact ⟨⟨hb.once, hb.rl⟩, id, fun e => hw (e.elim .inl (fun e => e.elim (fun e => by cases e) (fun e => by cases e)))⟩
  | _ => exact ⟨⟨hb.once, hb.rl⟩, id, fun e => hw (e.elim (fun e => by cases e) .inr)⟩

theorem woken_step {cfg : Cfg} {s s' : Sys} (hi : UInv s) (hw : WokenInv s) (h : Step cfg s s') : WokenInv s' := by
  cases ueff_step hi.dom h with
  | quiet ht hs =>
    refine ⟨?_, ?_⟩
    · intro i b' hb
      rcases hs i b' hb with ⟨b, hb0, he⟩ | ⟨_, id, rt, n, _, rfl⟩
      · exact ((hw.sub i b hb0).eqv he).1
      · exact ⟨.inl rfl, fun e => by cases e⟩
    · intro t i p h b' hwn hb hk
      rw [ht] at hwn
      rcases hs i b' hb with ⟨b, hb0, he⟩ | ⟨hl, _⟩
      · rw [((hw.sub i b hb0).eqv he).2]; exact hw.woke t i p h b hwn hb0 hk
      · obtain ⟨b, hb0⟩ := won_sub hi.dom hwn
        have := (List.getElem?_eq_some_iff.1 hb0).1
        omega
  | @rl j b b' ht hb hb' hs hr =>
    obtain ⟨w, hok⟩ := hi.sub hb
    have hst := (hw.sub j b hb).step hok hr
    refine ⟨?_, ?_⟩
    · intro i c hc
      by_cases hij : i = j
      · subst hij; rw [hb'] at hc; cases hc; exact hst.1
      · rw [hs i hij] at hc; exact hw.sub i c hc
    · intro t i p h c hwn hc hk
      rw [ht] at hwn
      by_cases hij : i = j
      · subst hij; rw [hb'] at hc; cases hc; exact hst.2 (hw.woke t i p h b hwn hb hk)
      · rw [hs i hij] at hc; exact hw.woke t i p h c hwn hc hk
  | @cas t j b pc ht ht' hwb hb hb' hs hst hpc =>
    have hb0 := hw.sub j b hb
    refine ⟨?_, ?_⟩
    · intro i c hc
      by_cases hij : i = j
      · subst hij; rw [hb'] at hc; cases hc
        exact ⟨hb0.once, fun e => by have := hb0.rl e; rw [hst] at this; cases this⟩
      · rw [hs i hij] at hc; exact hw.sub i c hc
    · intro u i p h c hwn hc hk
      by_cases hut : u = t
      · subst hut
        rw [ht'] at hwn
        cases hwn
        rcases hk with e | e | e
        · subst e; rcases hpc with ⟨_, e⟩ | e <;> cases e
        · cases e
        · cases e
      · rw [hwb u hut] at hwn
        by_cases hij : i = j
        · subst hij; rw [hb'] at hc; cases hc; exact hw.woke u i p h b hwn hb hk
        · rw [hs i hij] at hc; exact hw.woke u i p h c hwn hc hk
  | @thr t j b b' pc pc' hh hh' ht ht' hwb hb hb' hs hst =>
    have hst := (hw.sub j b hb).thr (fun hk => hw.woke t j pc hh b ht hb hk) (hi.held t j pc hh b ht hb) hst
    refine ⟨?_, ?_⟩
    · intro i c hc
      by_cases hij : i = j
      · subst hij; rw [hb'] at hc; cases hc; exact hst.1
      · rw [hs i hij] at hc; exact hw.sub i c hc
    · intro u i p h c hwn hc hk
      by_cases hut : u = t
      · subst hut
        rw [ht'] at hwn
        cases hwn
        rw [hb'] at hc; cases hc
        exact hst.2.2 hk
      · rw [hwb u hut] at hwn
        by_cases hij : i = j
        · subst hij; rw [hb'] at hc; cases hc; exact hst.2.1 (hw.woke u i p h b hwn hb hk)
        · rw [hs i hij] at hc; exact hw.woke u i p h c hwn hc hk

theorem woken_run {cfg : Cfg} : ∀ {es : List Ev} {s s' : Sys}, UInv s → WokenInv s → s.run cfg es = some s' → WokenInv s'
  | [], s, s', _, hw, h => by cases h; exact hw
  | e :: es, s, s', hi, hw, h => by
    simp only [Sys.run, Option.bind_eq_some_iff] at h
    obtain ⟨s1, h1, h2⟩ := h
    exact woken_run (uinv_step hi (step_cases h1).2) (woken_step hi hw (step_cases h1).2) h2

theorem UInv.done_closed {s : Sys} (hi : UInv s) {i : Nat} {b : Sub} (hb : s.subs[i]? = some b) (hd : b.once = .done) : b.state = .closed := by
  obtain ⟨w, hk⟩ := hi.sub hb
  rcases hk.once with ⟨_, ho⟩ | ⟨_, ho⟩ <;> unfold OnceOk at ho <;> rw [hd] at ho <;> split at ho <;> simp_all

end Stomp.Client
