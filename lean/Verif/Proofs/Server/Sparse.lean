import Verif.Proofs.Server.Timer
import Verif.Proofs.Server.Writes
/-! # Heart-beats of the server are sent only after a whole interval without a message or heart-beat -/
namespace Stomp.Server
open Stomp

/-- What is written by the cases that do not stop the timer are answers. -/
theorem answers_step {cfg : Config} {c c' : Conn} {e : Conn.Ev} (hg : Gate cfg c) (h : Step cfg c e c') (hr : resets e = false) :
    ∃ new, c'.out = c.out ++ new ∧ ∀ w ∈ new, ¬ Spec.Stream w := by
  have no : ∀ g : Frame, g.command ≠ b!"MESSAGE" → ∀ w ∈ ([⟨some g, none⟩] : List Wr), ¬ Spec.Stream w := by
    intro g hg w hw hs
    rw [List.mem_singleton] at hw; subst hw
    rcases hs with hs | ⟨f, hs, hf⟩
    · cases hs
    · injection hs with hs; subst hs; exact hg hf
  have z : c.out = c.out ++ [] := (List.append_nil _).symm
  cases h with
  | frame ok1 ok2 f q c1 _ f' r ha hq hsf hfin =>
    rcases frame_cases hg hsf hfin with ⟨_, v, cx, cy, _, ⟨_, rfl⟩ | ⟨_, rfl⟩⟩ | ⟨_, _, e, v, ⟨_, rfl⟩ | ⟨_, rfl⟩⟩ | ⟨_, hh, hf⟩
    · exact ⟨_, rfl, no _ (by show Cmd.connected ≠ _; decide)⟩
    · exact ⟨[], z, by simp⟩
    · exact ⟨_, rfl, no _ (by show Cmd.error ≠ _; decide)⟩
    · exact ⟨[], z, by simp⟩
    · have h1 : ∃ new, c1.out = c.out ++ new ∧ ∀ w ∈ new, ¬ Spec.Stream w := by
        rcases hh.out with ⟨h, _⟩ | ⟨v, _, h, _⟩ | ⟨h, _⟩
        · exact ⟨[], by simp [h], by simp⟩
        · exact ⟨_, h, no _ (by show Cmd.receipt ≠ _; decide)⟩
        · exact ⟨[], by simp [h], by simp⟩
      obtain ⟨new, h1, h2⟩ := h1
      cases hf with
      | ok => exact ⟨new, h1, h2⟩
      | panic => exact ⟨new, h1, h2⟩
      | err e =>
        refine ⟨new ++ [⟨some (errorFrame cfg e f'), none⟩], ?_, ?_⟩
        · show c1.out ++ _ = _; rw [h1, List.append_assoc]
        · intro w hw
          rcases List.mem_append.1 hw with hw | hw
          · exact h2 w hw
          · exact no _ (by show Cmd.error ≠ _; decide) w hw
      | errFail e => exact ⟨new, h1, h2⟩
  | wrOk => cases hr
  | wrErr => cases hr
  | wrFail => cases hr
  | subGone => cases hr
  | subNil => cases hr
  | subFail => cases hr
  | subAuto => cases hr
  | subPanic => cases hr
  | subAdd => cases hr
  | timerOk => cases hr
  | timerFail => cases hr
  | _ => exact ⟨[], z, by simp⟩

/-- The timer, if it runs, runs for the whole interval after every message and heart-beat written. -/
structure SparseInv (x : TConn) : Prop where
  past : ∀ t l o, (t, l, o) ∈ x.log → t ≤ x.now
  sent : ∀ t l w, (t, l, .wrote w) ∈ x.log → Spec.Stream w → ∀ dl, x.timer = some dl → t + Spec.ms x.conn.writeTimeout ≤ dl

theorem sparse_arm {x : TConn} (h : SparseInv x) : SparseInv x.arm := by
  refine ⟨by rw [arm_log, arm_now]; exact h.past, ?_⟩
  rw [arm_log, arm_conn]
  intro t l w hm hs dl hd
  by_cases hc : x.conn.atSelect ∧ 0 < x.conn.writeTimeout ∧ x.timer = none
  · rw [show x.arm = { x with timer := some (x.now + x.conn.writeTimeout * 1000000) } from if_pos hc] at hd
    injection hd with hd
    have := h.past _ _ _ hm
    unfold Spec.ms
    omega
  · rw [show x.arm = x from if_neg hc] at hd; exact h.sent t l w hm hs dl hd

theorem sparse_step {cfg : Config} {x x' : TConn} {e : TConn.Ev} (hg : Gate cfg x.conn) (hgr : Greeting cfg x.conn) (ht : TimerInv x) (hi : SparseInv x) (h : x.step cfg e = some x') :
    SparseInv x' := by
  have quiet : ∀ (y : TConn) (l : List TObs), y.timer = x.timer → y.now = x.now → y.log = x.log ++ l.map (fun o => (x.now, x.late, o)) → (∀ o ∈ l, ∀ w, o ≠ .wrote w) →
      y.conn.writeTimeout = x.conn.writeTimeout → SparseInv y := by
    intro y l h1 h2 h3 h4 h5
    have hm : ∀ t k o, (t, k, o) ∈ y.log → (t, k, o) ∈ x.log ∨ (t = x.now ∧ o ∈ l) := by
      intro t k o ho
      rw [h3] at ho
      rcases List.mem_append.1 ho with ho | ho
      · exact .inl ho
      · obtain ⟨o', h1, e⟩ := List.mem_map.1 ho
        cases e
        exact .inr ⟨rfl, h1⟩
    constructor
    · intro t k o ho
      rw [h2]
      rcases hm t k o ho with ho | ⟨rfl, _⟩
      · exact hi.past _ _ _ ho
      · exact Nat.le_refl _
    · intro t k w ho hs dl hd
      rw [h1] at hd; rw [h5]
      rcases hm t k _ ho with ho | ⟨_, ho⟩
      · exact hi.sent _ _ _ ho hs dl hd
      · exact absurd rfl (h4 _ ho w)
  cases e with
  | delay d =>
    simp only [TConn.step, Option.some.injEq] at h; subst h
    exact ⟨fun t l o hm => Nat.le_trans (hi.past t l o hm) (Nat.le_add_right _ _), hi.sent⟩
  | bytes =>
    simp only [TConn.step] at h; split at h <;> simp only [Option.some.injEq, reduceCtorEq] at h
    subst h; exact quiet _ [.bytes] rfl rfl rfl (by simp) rfl
  | item f =>
    simp only [TConn.step] at h
    split at h
    · split at h <;> simp only [Option.some.injEq] at h <;> subst h
      · exact quiet _ [.item none] rfl rfl rfl (by simp) rfl
      · exact quiet _ [.item (some _)] rfl rfl rfl (by simp) rfl
    · cases h
  | push =>
    simp only [TConn.step] at h
    split at h
    · cases h
    · obtain ⟨c, h1, h2⟩ := Option.map_eq_some_iff.1 h
      subst h2
      have h3 := step_of _ _ _ _ h1
      cases h3
      exact quiet _ [.pushed] rfl rfl rfl (by simp) rfl
  | expire =>
    simp only [TConn.step] at h
    split at h
    · obtain ⟨c, h1, h2⟩ := Option.map_eq_some_iff.1 h
      subst h2
      have h3 := step_of _ _ _ _ h1
      cases h3
      exact quiet _ [] rfl rfl (List.append_nil _).symm (by simp) rfl
    · cases h
  | fail =>
    simp only [TConn.step] at h
    split at h
    · obtain ⟨c, h1, h2⟩ := Option.map_eq_some_iff.1 h
      subst h2
      have h3 := step_of _ _ _ _ h1
      cases h3
      exact quiet _ [] rfl rfl (List.append_nil _).symm (by simp) rfl
    · cases h
  | step e =>
    simp only [TConn.step] at h
    split at h
    · rename_i tm c h1 h2
      injection h with h; subst h
      have hst := step_of _ _ _ _ h2
      have htm : tm ≠ none → tm = x.timer ∧ resets e = false := by
        intro hn
        cases e <;> simp only [TConn.timerAfter, Option.some.injEq, reduceCtorEq] at h1 <;> first | exact ⟨h1.symm, rfl⟩ | exact absurd h1.symm hn | (split at h1 <;> simp only [Option.some.injEq, reduceCtorEq] at h1; exact absurd h1.symm hn)
      have hm : ∀ t k o, (t, k, o) ∈ x.log ++ (TConn.goneIn x.conn e ++ (c.out.drop x.conn.out.length).map TObs.wrote).map (fun o => (x.now, x.late, o)) →
          (t, k, o) ∈ x.log ∨ (t = x.now ∧ o ∈ TConn.goneIn x.conn e ++ (c.out.drop x.conn.out.length).map TObs.wrote) := by
        intro t k o ho
        rcases List.mem_append.1 ho with ho | ho
        · exact .inl ho
        · obtain ⟨o', h1, e⟩ := List.mem_map.1 ho
          cases e
          exact .inr ⟨rfl, h1⟩
      refine sparse_arm ⟨?_, ?_⟩
      · intro t k o ho
        rcases hm t k o ho with ho | ⟨rfl, _⟩
        · exact hi.past _ _ _ ho
        · exact Nat.le_refl _
      · intro t k w ho hs dl hd
        have hd : tm = some dl := hd
        obtain ⟨h3, h4⟩ := htm (by rw [hd]; simp)
        have h5 := ht.set_ (by rw [← h3, hd]; simp)
        have h6 : x.conn.connected = true := by
          cases hcc : x.conn.connected with
          | true => rfl
          | false => rw [hgr.early hcc] at h5; exact absurd h5 (by simp)
        show t + Spec.ms c.writeTimeout ≤ dl
        rw [(writeTimeout_step hg hst h6).1]
        rcases hm t k _ ho with ho | ⟨_, ho⟩
        · exact hi.sent _ _ _ ho hs dl (by rw [← h3]; exact hd)
        · exfalso
          obtain ⟨new, h7, h8⟩ := answers_step hg hst h4
          rw [h7, List.drop_left] at ho
          rcases List.mem_append.1 ho with ho | ho
          · unfold TConn.goneIn at ho
            split at ho
            · cases h4
            · cases ho
          · obtain ⟨w', h9, h10⟩ := List.mem_map.1 ho
            injection h10 with h10; subst h10
            exact h8 _ h9 hs
    · cases h

theorem sparse_run {cfg : Config} {me : Nat} {es : List TConn.Ev} {x : TConn} (he : TEnvOk es) (h : (TConn.init me).run cfg es = some x) : SparseInv x :=
  (tconn_induct (P := fun x => (TimerInv x ∧ SentInv x) ∧ SparseInv x) (fun _ _ _ hg hgr hi h => ⟨timer_step hg hgr hi.1 h, sparse_step hg hgr hi.1.1 hi.2 h⟩) he
    ⟨⟨⟨fun h => absurd rfl h, fun _ h => absurd h (Nat.lt_irrefl 0)⟩, fun _ h => absurd h (Nat.lt_irrefl 0)⟩, ⟨fun _ _ _ h => absurd h List.not_mem_nil, fun _ _ _ h => absurd h List.not_mem_nil⟩⟩ h).2

end Stomp.Server
