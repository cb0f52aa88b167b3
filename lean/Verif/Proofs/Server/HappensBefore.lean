import Verif.Proofs.Server.RaceRun
import Verif.Spec.Races
/-! # What a watched goroutine knows of has happened before -/
namespace Stomp.Server
open Stomp Spec

theorem corr_append {p q : Moment → Bool} {l l' : List Moment} {i j : Nat} (h : Corresponds p q l i j) : Corresponds p q (l ++ l') i j := by
  obtain ⟨⟨a, ha, hp⟩, ⟨b, hb, hq⟩, hn⟩ := h
  have hi := (List.getElem?_eq_some_iff.1 ha).1
  have hj := (List.getElem?_eq_some_iff.1 hb).1
  refine ⟨⟨a, by rw [List.getElem?_append_left hi]; exact ha, hp⟩, ⟨b, by rw [List.getElem?_append_left hj]; exact hb, hq⟩, ?_⟩
  rw [List.take_append_of_le_length (by omega), List.take_append_of_le_length (by omega)]
  exact hn

theorem get_append {l : List Moment} {i : Nat} {a : Moment} (l' : List Moment) (h : l[i]? = some a) : (l ++ l')[i]? = some a := by
  rw [List.getElem?_append_left (List.getElem?_eq_some_iff.1 h).1]; exact h

theorem hb_append {l : List Moment} {i j : Nat} (l' : List Moment) (h : HappensBefore l i j) : HappensBefore (l ++ l') i j := by
  induction h with
  | program i j a b ha hb h hij => exact .program i j a b (get_append _ ha) (get_append _ hb) h hij
  | request i j h => exact .request i j (corr_append h)
  | subscription c i j h => exact .subscription c i j (corr_append h)
  | trans i j k _ _ ih ih' => exact .trans i j k ih ih'

/-- The knowledge in a channel is that of the senders, in their order. -/
def ChanInv (p q : Moment → Bool) (l : List Moment) (Ks : List (List Nat)) : Prop :=
  l.countP q + Ks.length = l.countP p ∧
  ∀ i K, Ks[i]? = some K → ∃ x, (∃ m, l[x]? = some m ∧ p m = true) ∧ (l.take x).countP p = l.countP q + i ∧ ∀ n ∈ K, HappensBefore l n x

/-- What is known has happened before. -/
structure HInv (l : List Moment) (w : Watch) : Prop where
  now : w.now = l.length
  know : ∀ g n, n ∈ w.know g → ∃ p a, l[p]? = some a ∧ doer a = g ∧ (n = p ∨ HappensBefore l n p)
  req : ChanInv sendsReq takesReq l w.reqK
  sub : ∀ c, ChanInv (sendsSub c) (takesSub c) l (w.subK c)
  hist : ∀ (i : Nat) a, l[i]? = some a → ∀ x ∈ touched a, (⟨i, doer a, x.1, x.2⟩ : Access) ∈ w.hist

theorem last_get (l : List Moment) (m : Moment) : (l ++ [m])[l.length]? = some m := by simp

theorem take_last (l : List Moment) (m : Moment) : (l ++ [m]).take l.length = l := by simp

section
variable {l : List Moment} {w : Watch} {m : Moment} (h : HInv l w)
include h

/-- What the doer of a step knew before has happened before the step. -/
theorem known_before {n : Nat} (hn : n ∈ w.know (doer m)) : HappensBefore (l ++ [m]) n l.length := by
  obtain ⟨p, a, hp, hd, hc⟩ := h.know _ _ hn
  have hlt := (List.getElem?_eq_some_iff.1 hp).1
  have h1 : HappensBefore (l ++ [m]) p l.length := .program p _ a m (get_append _ hp) (last_get l m) hd hlt
  rcases hc with rfl | hc
  · exact h1
  · exact .trans _ _ _ (hb_append _ hc) h1

end

section
variable {p q : Moment → Bool} {l : List Moment} {Ks : List (List Nat)} {m : Moment} (h : ChanInv p q l Ks)
include h

theorem chan_same (hp : p m = false) (hq : q m = false) : ChanInv p q (l ++ [m]) Ks := by
  obtain ⟨h1, h2⟩ := h
  refine ⟨?_, fun i K hK => ?_⟩
  · simp [List.countP_append, hp, hq, h1]
  · obtain ⟨x, ⟨a, ha, hpa⟩, h3, h4⟩ := h2 i K hK
    have hlt := (List.getElem?_eq_some_iff.1 ha).1
    refine ⟨x, ⟨a, get_append _ ha, hpa⟩, ?_, fun n hn => hb_append _ (h4 n hn)⟩
    rw [List.take_append_of_le_length (by omega), h3]
    simp [List.countP_append, hq]

theorem chan_send {K0 : List Nat} (hp : p m = true) (hq : q m = false) (hK : ∀ n ∈ K0, HappensBefore (l ++ [m]) n l.length) :
    ChanInv p q (l ++ [m]) (Ks ++ [K0]) := by
  obtain ⟨h1, h2⟩ := h
  refine ⟨?_, fun i K hK' => ?_⟩
  · simp only [List.countP_append, List.countP_singleton, hp, hq, List.length_append, List.length_cons, List.length_nil]
    simp
    omega
  · by_cases hi : i < Ks.length
    · rw [List.getElem?_append_left hi] at hK'
      obtain ⟨x, ⟨a, ha, hpa⟩, h3, h4⟩ := h2 i K hK'
      have hlt := (List.getElem?_eq_some_iff.1 ha).1
      refine ⟨x, ⟨a, get_append _ ha, hpa⟩, ?_, fun n hn => hb_append _ (h4 n hn)⟩
      rw [List.take_append_of_le_length (by omega), h3]
      simp [List.countP_append, hq]
    · rw [List.getElem?_append_right (by omega)] at hK'
      have hi0 : i = Ks.length := by
        cases hn : i - Ks.length with
        | zero => omega
        | succ n => rw [hn] at hK'; simp at hK'
      subst hi0
      simp at hK'
      subst hK'
      refine ⟨l.length, ⟨m, last_get l m, hp⟩, ?_, hK⟩
      rw [take_last]
      simp [List.countP_append, hq]
      omega

theorem chan_take (hp : p m = false) (hq : q m = true) (hne : Ks ≠ []) : ChanInv p q (l ++ [m]) Ks.tail := by
  obtain ⟨h1, h2⟩ := h
  cases Ks with
  | nil => exact absurd rfl hne
  | cons K0 Ks =>
    refine ⟨?_, fun i K hK => ?_⟩
    · simp only [List.countP_append, List.countP_singleton, hp, hq, List.tail_cons]
      simp at h1 ⊢
      omega
    · obtain ⟨x, ⟨a, ha, hpa⟩, h3, h4⟩ := h2 (i + 1) K (by simpa using hK)
      have hlt := (List.getElem?_eq_some_iff.1 ha).1
      refine ⟨x, ⟨a, get_append _ ha, hpa⟩, ?_, fun n hn => hb_append _ (h4 n hn)⟩
      rw [List.take_append_of_le_length (by omega), h3]
      simp [List.countP_append, hq]
      omega

/-- What is received has happened before. -/
theorem chan_gain (hq : q m = true) (hc : ∀ i j, Corresponds p q (l ++ [m]) i j → HappensBefore (l ++ [m]) i j) {n : Nat}
    (hn : n ∈ Ks.head?.getD []) : HappensBefore (l ++ [m]) n l.length := by
  obtain ⟨h1, h2⟩ := h
  cases Ks with
  | nil => simp at hn
  | cons K0 Ks =>
    obtain ⟨x, ⟨a, ha, hpa⟩, h3, h4⟩ := h2 0 K0 rfl
    have hlt := (List.getElem?_eq_some_iff.1 ha).1
    refine .trans _ _ _ (hb_append _ (h4 n hn)) (hc _ _ ⟨⟨a, get_append _ ha, hpa⟩, ⟨m, last_get l m, hq⟩, ?_⟩)
    rw [List.take_append_of_le_length (by omega), h3, take_last]
    rfl

end

section
variable {cfg : Config} {l : List Moment} {s s' : Sys} {w : Watch} {e : Sys.Ev} (h : HInv l w) (hL : Lens s w) (hs : s.step cfg e = some s')
include h hL hs

theorem gained_before {n : Nat} (hn : n ∈ w.gained s e) : HappensBefore (l ++ [⟨s, e, s'⟩]) n l.length := by
  have hsub : ∀ c, (s.conn c).subCh = [] → w.subK c = [] := by
    intro c hc
    by_cases hlt : c < s.conns.length
    · have h1 := hL.sub c _ (List.getElem?_eq_getElem hlt)
      rw [Sys.conn_eq (List.getElem?_eq_getElem hlt)] at hc
      rw [hc] at h1
      exact List.length_eq_zero_iff.1 h1
    · exact hL.none c (by omega)
  unfold Watch.gained at hn
  split at hn
  · refine chan_gain h.req ?_ (fun i j hc => .request i j hc) hn
    show (!s.reqCh.isEmpty) = true
    cases hr : s.reqCh with
    | nil =>
      have h1 := hL.req
      rw [hr] at h1
      rw [List.length_eq_zero_iff.1 h1] at hn
      simp at hn
    | cons q rs => rfl
  · rename_i c ok
    refine chan_gain (h.sub c) ?_ (fun i j hc => .subscription c i j hc) hn
    show (decide (c = c) && !(s.conn c).subCh.isEmpty) = true
    cases hr : (s.conn c).subCh with
    | nil => rw [hsub c hr] at hn; simp at hn
    | cons q rs => simp
  · rename_i c
    split at hn
    · rename_i hst
      refine chan_gain (h.sub c) ?_ (fun i j hc => .subscription c i j hc) hn
      show (decide (c = c ∧ ((s.conn c).stage = .drain1 ∨ (s.conn c).stage = .drain2)) && !(s.conn c).subCh.isEmpty) = true
      cases hr : (s.conn c).subCh with
      | nil => rw [hsub c hr] at hn; simp at hn
      | cons q rs => simp [hst]
    · simp at hn
  · simp at hn

theorem all_before {n : Nat} (hn : n ∈ w.know e.goroutine ++ w.gained s e) : HappensBefore (l ++ [⟨s, e, s'⟩]) n l.length := by
  rcases List.mem_append.1 hn with hn | hn
  · exact known_before (m := ⟨s, e, s'⟩) h hn
  · exact gained_before h hL hs hn

theorem hinv_step : HInv (l ++ [⟨s, e, s'⟩]) (w.step s e s') := by
  have hsub : ∀ c, w.subK c = [] ↔ (s.conn c).subCh = [] ∨ s.conns.length ≤ c := by
    intro c
    by_cases hlt : c < s.conns.length
    · have h1 := hL.sub c _ (List.getElem?_eq_getElem hlt)
      rw [Sys.conn_eq (List.getElem?_eq_getElem hlt)]
      constructor
      · intro h2; rw [h2] at h1; exact Or.inl (List.length_eq_zero_iff.1 h1.symm)
      · rintro (h2 | h2)
        · rw [h2] at h1; exact List.length_eq_zero_iff.1 h1
        · omega
    · exact ⟨fun _ => Or.inr (by omega), fun _ => hL.none c (by omega)⟩
  refine ⟨?_, ?_, ?_, ?_, ?_⟩
  · show w.now + 1 = _
    rw [h.now]; simp
  · intro g n hn
    have hn' : n ∈ if g = e.goroutine then w.know e.goroutine ++ w.gained s e ++ [w.now] else w.know g := hn
    split at hn'
    · rename_i hg
      refine ⟨l.length, ⟨s, e, s'⟩, last_get _ _, hg.symm, ?_⟩
      rcases List.mem_append.1 hn' with hn' | hn'
      · exact Or.inr (all_before h hL hs hn')
      · rw [List.mem_singleton] at hn'
        exact Or.inl (by rw [hn', h.now])
    · obtain ⟨p, a, hp, hd, hc⟩ := h.know g n hn'
      exact ⟨p, a, get_append _ hp, hd, hc.imp id (hb_append _)⟩
  · show ChanInv _ _ _ (w.reqK' e)
    unfold Watch.reqK'
    split
    · rename_i c
      exact chan_send h.req rfl rfl (fun n hn => known_before (m := ⟨s, .flush c, s'⟩) h hn)
    · cases hr : s.reqCh with
      | nil =>
        have h1 := hL.req
        rw [hr] at h1
        have h2 := List.length_eq_zero_iff.1 h1
        rw [h2]
        have h3 := h.req
        rw [h2] at h3
        exact chan_same h3 rfl (by show (!s.reqCh.isEmpty) = false; rw [hr]; rfl)
      | cons q rs =>
        refine chan_take h.req rfl (by show (!s.reqCh.isEmpty) = true; rw [hr]; rfl) ?_
        intro h2
        have h1 := hL.req
        rw [hr, h2] at h1
        simp at h1
    · rename_i hn1 hn2
      refine chan_same h.req ?_ ?_
      · unfold sendsReq
        split
        · rename_i c hc; exact absurd hc (hn1 c)
        · rfl
      · unfold takesReq
        split
        · rename_i hc; exact absurd hc hn2
        · rfl
  · intro c
    show ChanInv _ _ _ (w.subK' s e c)
    unfold Watch.subK'
    split
    · split
      · rename_i r t ht
        split
        · rename_i hc
          refine chan_send (h.sub c) ?_ rfl (fun n hn => known_before (m := ⟨s, .push, s'⟩) h hn)
          simp [sendsSub, ht, hc]
        · rename_i hc
          refine chan_same (h.sub c) ?_ rfl
          simp [sendsSub, ht, hc]
      · rename_i hn
        refine chan_same (h.sub c) ?_ rfl
        unfold sendsSub
        split
        · rename_i r t _ ht; exact absurd ht (hn r t)
        · rfl
    · rename_i c' ok
      split
      · rename_i hc
        subst hc
        by_cases hr : (s.conn c').subCh = []
        · have h2 := (hsub c').2 (Or.inl hr)
          have h3 := h.sub c'
          rw [h2] at h3 ⊢
          exact chan_same h3 rfl (by simp [takesSub, hr])
        · refine chan_take (h.sub c') rfl (by simp [takesSub, hr]) ?_
          intro h2
          rcases (hsub c').1 h2 with h3 | h3
          · exact hr h3
          · have : s.conns[c']? = none := List.getElem?_eq_none h3
            apply hr
            unfold Sys.conn
            rw [List.getD_eq_getElem?_getD, this]
            rfl
      · rename_i hc
        exact chan_same (h.sub c) rfl (by simp [takesSub, hc])
    · rename_i c'
      split
      · rename_i hc
        obtain ⟨hc, hst⟩ := hc
        subst hc
        by_cases hr : (s.conn c').subCh = []
        · have h2 := (hsub c').2 (Or.inl hr)
          have h3 := h.sub c'
          rw [h2] at h3 ⊢
          exact chan_same h3 rfl (by simp [takesSub, hr])
        · refine chan_take (h.sub c') rfl (by simp [takesSub, hr, hst]) ?_
          intro h2
          rcases (hsub c').1 h2 with h3 | h3
          · exact hr h3
          · have : s.conns[c']? = none := List.getElem?_eq_none h3
            apply hr
            unfold Sys.conn
            rw [List.getD_eq_getElem?_getD, this]
            rfl
      · rename_i hc
        exact chan_same (h.sub c) rfl (by simp [takesSub, hc])
    · rename_i hn1 hn2 hn3
      refine chan_same (h.sub c) ?_ ?_
      · unfold sendsSub
        split
        · rename_i hc _; exact absurd hc hn1
        · rfl
      · unfold takesSub
        split
        · rename_i c' ok hc; exact absurd hc (hn2 c' ok)
        · rename_i c' hc; exact absurd hc (hn3 c')
        · rfl
  · intro i a ha x hx
    show _ ∈ w.hist ++ (accesses s e s').map _
    by_cases hi : i < l.length
    · rw [List.getElem?_append_left hi] at ha
      exact List.mem_append_left _ (h.hist i a ha x hx)
    · rw [List.getElem?_append_right (by omega)] at ha
      have hi0 : i = l.length := by
        cases hn : i - l.length with
        | zero => omega
        | succ n => rw [hn] at ha; simp at ha
      subst hi0
      simp at ha
      subst ha
      exact List.mem_append_right _ (List.mem_map.2 ⟨x, hx, by rw [h.now]; rfl⟩)

end

theorem hinv_init : HInv [] {} := by
  refine ⟨rfl, ?_, ?_, ?_, ?_⟩
  · intro g n hn; simp at hn
  · exact ⟨rfl, fun i K hK => by simp at hK⟩
  · intro c; exact ⟨rfl, fun i K hK => by simp at hK⟩
  · intro i a ha; simp at ha

/-- Conflicting accesses are ordered. -/
def Ordered (l : List Moment) : Prop :=
  ∀ i j a b x wa wb, l[i]? = some a → l[j]? = some b → i < j → (x, wa) ∈ touched a → (x, wb) ∈ touched b → wa = true ∨ wb = true →
    HappensBefore l i j ∨ doer a = doer b

theorem ordered_step {cfg : Config} {l : List Moment} {s s' : Sys} {w : Watch} {e : Sys.Ev} (hO : Ordered l) (h : HInv l w) (hL : Lens s w)
    (hs : s.step cfg e = some s') (hr : (w.step s e s').race = false) : Ordered (l ++ [⟨s, e, s'⟩]) := by
  intro i j a b x wa wb ha hb hij hxa hxb hw
  have hjl := (List.getElem?_eq_some_iff.1 hb).1
  rw [List.length_append, List.length_singleton] at hjl
  have hi : i < l.length := by omega
  rw [List.getElem?_append_left hi] at ha
  by_cases hj : j < l.length
  · rw [List.getElem?_append_left hj] at hb
    exact (hO i j a b x wa wb ha hb hij hxa hxb hw).imp (hb_append _) id
  · have hj0 : j = l.length := by omega
    subst hj0
    rw [last_get] at hb
    injection hb with hb
    subst hb
    by_cases hd : doer a = e.goroutine
    · exact Or.inr hd
    · left
      have hh := h.hist i a ha (x, wa) hxa
      have hr' : (w.race || Watch.races (w.know e.goroutine ++ w.gained s e) e.goroutine w.hist (accesses s e s')) = false := hr
      rw [Bool.or_eq_false_iff] at hr'
      have h1 := hr'.2
      unfold Watch.races at h1
      rw [List.any_eq_false] at h1
      have h2 := h1 (x, wb) hxb
      rw [Bool.not_eq_true, List.any_eq_false] at h2
      have h3 := h2 _ hh
      apply all_before h hL hs
      simp only [Bool.and_eq_true, decide_eq_true_eq, not_and, Bool.or_eq_true, ne_eq] at h3
      have h4 := h3 ⟨⟨trivial, hw⟩, hd⟩
      simp only [Bool.not_eq_true, Bool.not_eq_false', List.contains_iff_mem] at h4
      exact h4

theorem ordered_run {cfg : Config} (l' : List Moment) (l : List Moment) (s0 : Sys) (w0 : Watch) (hI : SInv cfg s0) (hT : ∀ t, total s0 t = made s0.conns t)
    (hW : WInv s0 w0) (h0 : w0.race = false) (hH : HInv l w0) (hO : Ordered l) (h : Follows cfg s0 l') : Ordered (l ++ l') := by
  induction l' generalizing l s0 w0 with
  | nil => rw [List.append_nil]; exact hO
  | cons m l' ih =>
    obtain ⟨s, e, s'⟩ := m
    obtain ⟨h1, hs1, h2⟩ := h
    dsimp only at h1 hs1 h2
    subst h1
    have hr := (race_knows hI hT hW.lens hs1).no_race hW h0
    have hO' := ordered_step hO hH hW.lens hs1 hr
    have hH' := hinv_step hH hW.lens hs1
    rcases (sys_step hI.refs hs1).2 with hcr | hst
    · cases l' with
      | nil => exact hO'
      | cons m2 l2 =>
        have := sys_crashed_step h2.2.1
        rw [hcr] at this; cases this
    · have := ih (l ++ [⟨s, e, s'⟩]) s' _ (sinv_step hI hst) (fun t => total_step hI hT hst t) (race_step hI hT hW hst) hr hH' hO' h2
      simpa using this

end Stomp.Server
