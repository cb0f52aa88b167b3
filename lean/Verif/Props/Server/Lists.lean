import Verif.Proofs.Server.LinkedList
/-! # C88: lists of subscriptions behave as sequences -/
namespace Stomp.Server
open Stomp

/-- A list built by the calls from subscriptions that were in none. -/
structure ListInv (heap : List Sub) (s : SList) : Prop where
  ids : (s.subs.elems.map (·.1)).Nodup
  fresh : ∀ e ∈ s.subs.elems.map (·.1), e < s.subs.fresh
  nodup : (Spec.listed s).Nodup
  flag : ∀ i ∈ Spec.listed s, (deref s.heap i).inList = true
  len : s.heap.length = heap.length
  same : ∀ i, { deref s.heap i with inList := false } = { deref heap i with inList := false }

theorem deref_mark (s : SList) (i j : Nat) (b : Bool) : deref (s.mark i b).heap j = if i = j ∧ j < s.heap.length then { deref s.heap j with inList := b } else deref s.heap j := by
  unfold SList.mark deref
  simp only [List.getD_eq_getElem?_getD, List.getElem?_modify]
  by_cases hj : j < s.heap.length
  · rw [List.getElem?_eq_getElem hj]
    by_cases hi : i = j <;> simp [hi, hj]
  · rw [List.getElem?_eq_none (by omega)]
    simp [hj]

theorem mark_same (s : SList) (i j : Nat) (b : Bool) : ({ deref (s.mark i b).heap j with inList := false } : Sub) = { deref s.heap j with inList := false } := by
  rw [deref_mark]; split <;> rfl

theorem mark_len (s : SList) (i : Nat) (b : Bool) : (s.mark i b).heap.length = s.heap.length := by simp [SList.mark]

theorem listCall_congr {f g : Nat → Sub} (h : ∀ i, ({ f i with inList := false } : Sub) = { g i with inList := false }) (q : List Nat) (o : SList.Op) : Spec.listCall f q o = Spec.listCall g q o := by
  have h1 : ∀ i, (f i).id = (g i).id := fun i => by have e := congrArg Sub.id (h i); exact e
  have h2 : ∀ i, (f i).ack = (g i).ack := fun i => by have e := congrArg Sub.ack (h i); exact e
  have h3 : ∀ i, (f i).msgId = (g i).msgId := fun i => by have e := congrArg Sub.msgId (h i); exact e
  cases o <;> simp only [Spec.listCall, h1, h2, h3]

theorem filter_ne {l r : List Nat} {i : Nat} (h : (l ++ i :: r).Nodup) : (l ++ i :: r).filter (fun j => !(j == i)) = l ++ r := by
  rw [List.nodup_append, List.nodup_cons] at h
  obtain ⟨_, ⟨h2, _⟩, h3⟩ := h
  rw [List.filter_append, List.filter_cons_of_neg (by simp)]
  rw [List.filter_eq_self.2 fun x hx => by simpa using h3 x hx i List.mem_cons_self, List.filter_eq_self.2 fun x hx => by simpa using fun (e : x = i) => h2 (e ▸ hx)]

/-- Taking elements out keeps the invariant. -/
theorem ListInv.thin {heap : List Sub} {s : SList} (h : ListInv heap s) {t : List (Nat × Nat)} (ht : t.Sublist s.subs.elems) : ListInv heap (s.withElems t) where
  ids := h.ids.sublist (ht.map _)
  fresh := fun e he => h.fresh e ((ht.map _).subset he)
  nodup := h.nodup.sublist (ht.map _)
  flag := fun i hi => h.flag i ((ht.map _).subset hi)
  len := h.len
  same := h.same

theorem ListInv.unmark {heap : List Sub} {s : SList} (h : ListInv heap s) {i : Nat} (hi : i ∉ Spec.listed s) : ListInv heap (s.mark i false) where
  ids := h.ids
  fresh := h.fresh
  nodup := h.nodup
  flag := by
    intro j hj
    rw [deref_mark, if_neg]
    · exact h.flag j hj
    · rintro ⟨rfl, _⟩; exact hi hj
  len := by rw [mark_len, h.len]
  same := fun j => by rw [mark_same, h.same]

theorem list_step {heap : List Sub} {s s' : SList} {o : SList.Op} {l : List Nat} (h : ListInv heap s) (hv : ∀ i, o = .add i → i < heap.length)
    (hs : s.step s.subs.elems.length o = some (s', l)) : ListInv heap s' ∧ (Spec.listed s', l) = Spec.listCall (deref heap) (Spec.listed s) o := by
  rw [← listCall_congr (f := deref s.heap) h.same]
  have hfront : s.subs.front = s.subs.elems.head?.map (·.1) := rfl
  cases o with
  | add i =>
    simp only [SList.step, SList.add] at hs
    split at hs
    · cases hs
    · rename_i hf
      cases hs
      have hi : i ∉ Spec.listed s := fun hi => hf (h.flag i hi)
      refine ⟨⟨?_, ?_, ?_, ?_, ?_, ?_⟩, ?_⟩
      · simp only [SList.mark, LList.pushBack, List.map_append, List.map_cons, List.map_nil]
        rw [List.nodup_append]
        refine ⟨h.ids, by simp, ?_⟩
        intro a ha b hb
        rw [List.mem_singleton] at hb
        have := h.fresh a ha
        omega
      · simp only [SList.mark, LList.pushBack, List.map_append, List.map_cons, List.map_nil, List.mem_append, List.mem_singleton]
        rintro e (he | he)
        · exact Nat.lt_succ_of_lt (h.fresh e he)
        · omega
      · simp only [Spec.listed, SList.mark, LList.pushBack, List.map_append, List.map_cons, List.map_nil]
        rw [List.nodup_append]
        refine ⟨h.nodup, by simp, ?_⟩
        intro a ha b hb
        rw [List.mem_singleton] at hb
        subst hb
        rintro rfl
        exact hi ha
      · intro j hj
        rw [deref_mark]
        split
        · rfl
        · rename_i hne
          simp only [Spec.listed, SList.mark, LList.pushBack, List.map_append, List.map_cons, List.map_nil, List.mem_append, List.mem_singleton] at hj
          rcases hj with hj | rfl
          · exact h.flag j hj
          · exact absurd ⟨rfl, by have := hv j rfl; rw [h.len]; exact this⟩ hne
      · rw [mark_len]; exact h.len
      · intro j; rw [mark_same]; exact h.same j
      · simp [Spec.listed, Spec.listCall, SList.mark, LList.pushBack]
  | get =>
    simp only [SList.step, Option.some.injEq, Prod.mk.injEq] at hs
    obtain ⟨rfl, rfl⟩ := hs
    cases he : s.subs.elems with
    | nil =>
      have : s.get = (none, s) := by simp [SList.get, LList.front, he]
      rw [this]
      exact ⟨h, by simp [Spec.listed, Spec.listCall, he]⟩
    | cons a t =>
      obtain ⟨e, i⟩ := a
      have hv : s.subs.value e = some i := by simp [LList.value, he, valueIn]
      have hg : s.get = (some i, (s.withElems t).mark i false) := by
        simp only [SList.get, LList.front, he, List.head?_cons, Option.map_some, hv]
        rw [remove_eq (pre := []) he h.ids]; rfl
      rw [hg]
      have hnd := h.nodup
      simp only [Spec.listed, he, List.map_cons, List.nodup_cons] at hnd
      refine ⟨(h.thin (by rw [he]; exact List.sublist_cons_self _ _)).unmark hnd.1, ?_⟩
      simp [Spec.listed, Spec.listCall, he, SList.mark, SList.withElems]
  | remove i =>
    simp only [SList.step, hfront] at hs
    rcases removeFrom_eq i s.subs.elems [] _ s rfl h.ids (Nat.le_refl _) with ⟨a, b⟩ | ⟨e, l1, r, a, b, c⟩
    · rw [b] at hs
      cases hs
      refine ⟨h, ?_⟩
      simp only [Spec.listCall, Prod.mk.injEq, and_true]
      exact (List.filter_eq_self.2 fun x hx => by simpa using fun (e : x = i) => a (e ▸ hx)).symm
    · rw [c] at hs
      cases hs
      have hnd := h.nodup
      have hl : Spec.listed s = l1.map (·.2) ++ i :: r.map (·.2) := by simp [Spec.listed, a]
      rw [hl] at hnd
      refine ⟨(h.thin (t := [] ++ (l1 ++ r)) (by rw [a, List.nil_append]; exact List.Sublist.append (.refl _) (List.sublist_cons_self _ _))).unmark ?_, ?_⟩
      · simp only [Spec.listed, SList.withElems, List.nil_append, List.map_append, List.mem_append, not_or]
        rw [List.nodup_append, List.nodup_cons] at hnd
        exact ⟨b, hnd.2.1.1⟩
      · simp only [Spec.listCall, Prod.mk.injEq, and_true]
        rw [hl, filter_ne hnd]
        simp [Spec.listed, SList.withElems, SList.mark]
  | find id =>
    simp only [SList.step, hfront] at hs
    rcases findFrom_eq id s.subs.elems [] _ s rfl h.ids (Nat.le_refl _) with ⟨a, b⟩ | ⟨e, i, l1, r, a, b, c, d⟩
    · rw [b] at hs
      cases hs
      refine ⟨h, ?_⟩
      have : (Spec.listed s).find? (fun j => (deref s.heap j).id == id) = none := List.find?_eq_none.2 fun x hx => by simpa using a x hx
      simp [Spec.listCall, this]
    · rw [d] at hs
      cases hs
      have hnd := h.nodup
      have hl : Spec.listed s = l1.map (·.2) ++ i :: r.map (·.2) := by simp [Spec.listed, a]
      have hf : (Spec.listed s).find? (fun j => (deref s.heap j).id == id) = some i := by
        rw [hl, List.find?_append, List.find?_eq_none.2 fun x hx => by simpa using b x hx]
        simp [c]
      refine ⟨h.thin (t := [] ++ (l1 ++ r)) (by rw [a, List.nil_append]; exact List.Sublist.append (.refl _) (List.sublist_cons_self _ _)), ?_⟩
      simp only [Spec.listCall, hf, Option.toList_some, Prod.mk.injEq, and_true]
      rw [hl] at hnd ⊢
      rw [filter_ne hnd]
      simp [Spec.listed, SList.withElems]
  | ack n =>
    simp only [SList.step, hfront] at hs
    obtain ⟨t', a1, a2, a3⟩ := ackFrom_eq n s.subs.elems [] _ s rfl h.ids (Nat.le_refl _)
    rw [a1] at hs
    simp only [Option.bind_some] at hs
    split at hs
    · cases hs
    · rename_i hp
      cases hs
      obtain ⟨b1, b2⟩ := (ackLoop_spec s.heap n (s.subs.elems.map (·.2))).2 (by simpa using hp)
      refine ⟨h.thin a3, ?_⟩
      rw [b2]
      simp only [Spec.listCall, Prod.mk.injEq]
      exact ⟨a2.trans b1, rfl⟩
  | nack n =>
    simp only [SList.step, hfront] at hs
    obtain ⟨t', a1, a2, a3⟩ := nackFrom_eq n s.subs.elems [] _ s rfl h.ids (Nat.le_refl _)
    rw [a1] at hs
    cases hs
    refine ⟨h.thin a3, ?_⟩
    rw [nackLoop_spec] at a2 ⊢
    simp only [Spec.listCall, Prod.mk.injEq]
    exact ⟨a2, rfl⟩

theorem list_run {heap : List Sub} : ∀ {os : List SList.Op} {s s' : SList} {ls : List (List Nat)}, ListInv heap s → (∀ i, .add i ∈ os → i < heap.length) →
    s.run os = some (s', ls) → ListInv heap s' ∧ (Spec.listed s', ls) = Spec.listCalls (deref heap) (Spec.listed s) os
  | [], s, s', ls, h, hv, hr => by cases hr; exact ⟨h, rfl⟩
  | o :: os, s, s', ls, h, hv, hr => by
    simp only [SList.run] at hr
    split at hr
    · cases hr
    · rename_i s1 l h1
      obtain ⟨i1, e1⟩ := list_step h (fun i hi => hv i (hi ▸ List.mem_cons_self)) h1
      cases h2 : s1.run os with
      | none => rw [h2] at hr; cases hr
      | some p =>
        rw [h2] at hr
        cases hr
        obtain ⟨i2, e2⟩ := list_run i1 (fun i hi => hv i (List.mem_cons_of_mem _ hi)) h2
        refine ⟨i2, ?_⟩
        have a1 := congrArg Prod.fst e1
        have a2 := congrArg Prod.snd e1
        have b1 := congrArg Prod.fst e2
        have b2 := congrArg Prod.snd e2
        simp only at a1 a2 b1 b2
        simp only [Spec.listCalls, ← a1, ← a2, ← b1, ← b2]

theorem listInv_new {heap : List Sub} : ListInv heap (SList.new heap) where
  ids := by simp [SList.new]
  fresh := by simp [SList.new]
  nodup := by simp [SList.new, Spec.listed]
  flag := by simp [SList.new, Spec.listed]
  len := rfl
  same := fun _ => rfl

/-- **C88**. Whatever calls are made, a list of subscriptions holds what the sequence would hold, and each call hands out what it would hand out: `Add` puts at the end, `Get` takes the first, `Remove` takes that one, `FindByIdAndRemove`
the first with the id, `Ack` and `Nack` all that are concerned and no others, from front to back, though the loops go on from elements next to those they take out. -/
theorem C88_sequence {heap : List Sub} {os : List SList.Op} {s : SList} {ls : List (List Nat)} (hv : ∀ i, .add i ∈ os → i < heap.length) (hr : (SList.new heap).run os = some (s, ls)) :
    Spec.listed s = (Spec.listCalls (deref heap) [] os).1 ∧ ls = (Spec.listCalls (deref heap) [] os).2 ∧ (Spec.listed s).Nodup := by
  obtain ⟨h1, h2⟩ := list_run listInv_new hv hr
  exact ⟨congrArg Prod.fst h2, congrArg Prod.snd h2, h1.nodup⟩

/-- **C88**, the loops end: after as many rounds as the list has elements, and a call fails only by a panic: `Add` of a subscription that is marked, and `Ack` if a subscription in the list has a mode that does not exist. -/
theorem C88_ends {heap : List Sub} {os : List SList.Op} {s : SList} {ls : List (List Nat)} (hv : ∀ i, .add i ∈ os → i < heap.length) (hr : (SList.new heap).run os = some (s, ls)) (o : SList.Op) :
    (∀ n, (Spec.listed s).length ≤ n → s.step n o = s.step (Spec.listed s).length o) ∧
    (s.step (Spec.listed s).length o = none ↔ (∃ i, o = .add i ∧ (deref s.heap i).inList = true) ∨ (∃ n, o = .ack n ∧ ∃ j ∈ Spec.listed s, ¬ Spec.KnownMode (deref heap j).ack)) := by
  obtain ⟨h, _⟩ := list_run listInv_new hv hr
  have hl : (Spec.listed s).length = s.subs.elems.length := by simp [Spec.listed]
  have hfront : s.subs.front = s.subs.elems.head?.map (·.1) := rfl
  rw [hl]
  cases o with
  | add i =>
    refine ⟨fun _ _ => rfl, ?_⟩
    by_cases hf : (deref s.heap i).inList = true <;> simp [SList.step, SList.add, hf]
  | get => exact ⟨fun _ _ => rfl, by simp [SList.step]⟩
  | remove i =>
    have key : ∀ n, s.subs.elems.length ≤ n → s.step n (.remove i) = s.step s.subs.elems.length (.remove i) ∧ (s.step n (.remove i)).isSome = true := by
      intro n hn
      simp only [SList.step, hfront]
      rcases removeFrom_eq i s.subs.elems [] n s rfl h.ids hn with ⟨a, b⟩ | ⟨e, l, r, a, b, c⟩
      · rcases removeFrom_eq i s.subs.elems [] _ s rfl h.ids (Nat.le_refl _) with ⟨a', b'⟩ | ⟨e', l', r', a', b', c'⟩
        · rw [b, b']; simp
        · exact absurd (by rw [a']; simp) a
      · rcases removeFrom_eq i s.subs.elems [] _ s rfl h.ids (Nat.le_refl _) with ⟨a', b'⟩ | ⟨e', l', r', a', b', c'⟩
        · exact absurd (by rw [a]; simp) a'
        · have hnd := h.ids
          rw [c, c']
          have h1 : Spec.listed s = l.map (·.2) ++ i :: r.map (·.2) := by simp [Spec.listed, a]
          have h2 : Spec.listed s = l'.map (·.2) ++ i :: r'.map (·.2) := by simp [Spec.listed, a']
          have hll : l.length = l'.length := by
            have e1 : (Spec.listed s).idxOf i = l.length := by rw [h1, List.idxOf_append, if_neg b]; simp
            have e2 : (Spec.listed s).idxOf i = l'.length := by rw [h2, List.idxOf_append, if_neg b']; simp
            omega
          obtain ⟨q1, q2⟩ := List.append_inj (a.symm.trans a') hll
          obtain ⟨_, q3⟩ := List.cons.inj q2
          rw [q1, q3]; simp
    refine ⟨fun n hn => (key n hn).1, ?_⟩
    have := (key _ (Nat.le_refl _)).2
    constructor
    · intro e; rw [e] at this; cases this
    · rintro (⟨_, e, _⟩ | ⟨_, e, _⟩) <;> cases e
  | find id =>
    have hnd := h.ids
    have key : ∀ (t pre : List (Nat × Nat)) (n m : Nat), s.subs.elems = pre ++ t → t.length ≤ n → t.length ≤ m → s.findFrom id n (t.head?.map (·.1)) = s.findFrom id m (t.head?.map (·.1)) ∧ (s.findFrom id n (t.head?.map (·.1))).isSome = true := by
      intro t
      induction t with
      | nil => intro pre n m _ _ _; cases n <;> cases m <;> simp [SList.findFrom]
      | cons a t ih =>
        obtain ⟨e, i⟩ := a
        intro pre n m he hn hm
        cases n with
        | zero => simp at hn
        | succ n =>
          cases m with
          | zero => simp at hm
          | succ m =>
            have hn' := hnd
            rw [he] at hn'
            have h1 : s.subs.next e = t.head?.map (·.1) := by unfold LList.next; rw [he]; exact nextIn_mid hn'
            have h2 : s.subs.value e = some i := by unfold LList.value; rw [he]; exact valueIn_mid hn'
            simp only [List.head?_cons, Option.map_some, SList.findFrom, h1, h2]
            split
            · simp
            · exact ih (pre ++ [(e, i)]) n m (by rw [he]; simp) (by simpa using hn) (by simpa using hm)
    have key' := fun n hn => key s.subs.elems [] n s.subs.elems.length rfl hn (Nat.le_refl _)
    refine ⟨fun n hn => ?_, ?_⟩
    · simp only [SList.step, hfront, (key' n hn).1]
    · have := (key' _ (Nat.le_refl _)).2
      constructor
      · intro e
        simp only [SList.step, hfront, Option.map_eq_none_iff] at e
        rw [e] at this; cases this
      · rintro (⟨_, e, _⟩ | ⟨_, e, _⟩) <;> cases e
  | ack k =>
    have hmode : ∀ j, (deref s.heap j).ack = (deref heap j).ack := fun j => by have e := congrArg Sub.ack (h.same j); exact e
    have hnd := h.ids
    have key : ∀ (t pre : List (Nat × Nat)) (n m : Nat) (s : SList), (s.subs.elems.map (·.1)).Nodup → s.subs.elems = pre ++ t → t.length ≤ n → t.length ≤ m → s.ackFrom k n (t.head?.map (·.1)) = s.ackFrom k m (t.head?.map (·.1)) := by
      intro t
      induction t with
      | nil => intro pre n m s _ _ _ _; cases n <;> cases m <;> simp [SList.ackFrom]
      | cons a t ih =>
        obtain ⟨e, i⟩ := a
        intro pre n m s hnd he hn hm
        cases n with
        | zero => simp at hn
        | succ n =>
          cases m with
          | zero => simp at hm
          | succ m =>
            have hn' := hnd
            rw [he] at hn'
            have h1 : s.subs.next e = t.head?.map (·.1) := by unfold LList.next; rw [he]; exact nextIn_mid hn'
            have h2 : s.subs.value e = some i := by unfold LList.value; rw [he]; exact valueIn_mid hn'
            simp only [List.head?_cons, Option.map_some, SList.ackFrom, h1, h2]
            split
            · rfl
            · rw [remove_eq he hnd, ih pre n m (s.withElems (pre ++ t)) (nodup_mid hn') rfl (by simpa using hn) (by simpa using hm)]
            · exact ih (pre ++ [(e, i)]) n m s hnd (by rw [he]; simp) (by simpa using hn) (by simpa using hm)
    refine ⟨fun n hn => ?_, ?_⟩
    · simp only [SList.step, hfront, key s.subs.elems [] n s.subs.elems.length s hnd rfl hn (Nat.le_refl _)]
    · obtain ⟨t', a1, _, _⟩ := ackFrom_eq k s.subs.elems [] _ s rfl h.ids (Nat.le_refl _)
      simp only [SList.step, hfront, a1, Option.bind_some]
      have hp := (ackLoop_spec s.heap k (s.subs.elems.map (·.2))).1
      simp only [hmode] at hp
      constructor
      · intro e
        right
        refine ⟨k, rfl, hp.1 ?_⟩
        split at e
        · assumption
        · cases e
      · rintro (⟨_, e, _⟩ | ⟨_, e, hj⟩)
        · cases e
        · rw [if_pos (hp.2 hj)]
  | nack k =>
    have hnd := h.ids
    have key : ∀ (t pre : List (Nat × Nat)) (n m : Nat) (s : SList), (s.subs.elems.map (·.1)).Nodup → s.subs.elems = pre ++ t → t.length ≤ n → t.length ≤ m → s.nackFrom k n (t.head?.map (·.1)) = s.nackFrom k m (t.head?.map (·.1)) := by
      intro t
      induction t with
      | nil => intro pre n m s _ _ _ _; cases n <;> cases m <;> simp [SList.nackFrom]
      | cons a t ih =>
        obtain ⟨e, i⟩ := a
        intro pre n m s hnd he hn hm
        cases n with
        | zero => simp at hn
        | succ n =>
          cases m with
          | zero => simp at hm
          | succ m =>
            have hn' := hnd
            rw [he] at hn'
            have h1 : s.subs.next e = t.head?.map (·.1) := by unfold LList.next; rw [he]; exact nextIn_mid hn'
            have h2 : s.subs.value e = some i := by unfold LList.value; rw [he]; exact valueIn_mid hn'
            simp only [List.head?_cons, Option.map_some, SList.nackFrom, h1, h2]
            split
            · rw [remove_eq he hnd, ih pre n m (s.withElems (pre ++ t)) (nodup_mid hn') rfl (by simpa using hn) (by simpa using hm)]
            · exact ih (pre ++ [(e, i)]) n m s hnd (by rw [he]; simp) (by simpa using hn) (by simpa using hm)
    refine ⟨fun n hn => ?_, ?_⟩
    · simp only [SList.step, hfront, key s.subs.elems [] n s.subs.elems.length s hnd rfl hn (Nat.le_refl _)]
    · obtain ⟨t', a1, _, _⟩ := nackFrom_eq k s.subs.elems [] _ s rfl h.ids (Nat.le_refl _)
      simp only [SList.step, hfront, a1]
      constructor
      · intro e; cases e
      · rintro (⟨_, e, _⟩ | ⟨_, e, _⟩) <;> cases e

/-- **C88**, `ForEach`: the callback is called for every subscription in the list, in order, and told of the last one that it is the last. -/
theorem C88_forEach {heap : List Sub} {os : List SList.Op} {s : SList} {ls : List (List Nat)} (hv : ∀ i, .add i ∈ os → i < heap.length) (hr : (SList.new heap).run os = some (s, ls))
    {n : Nat} (hn : (Spec.listed s).length ≤ n) :
    ∃ l, s.forEachFrom n s.subs.front = some l ∧ l.map (·.1) = Spec.listed s ∧ ∀ k i b, l[k]? = some (i, b) → b = decide (k + 1 = (Spec.listed s).length) := by
  obtain ⟨h, _⟩ := list_run listInv_new hv hr
  have hl : (Spec.listed s).length = s.subs.elems.length := by simp [Spec.listed]
  rw [hl] at hn ⊢
  obtain ⟨l, a, b, c⟩ := forEachFrom_eq s.subs.elems [] n s rfl h.ids hn
  exact ⟨l, a, b, fun k i b hk => c k _ hk⟩

/-- **C88**: the loops do what `ackLoop` and `nackLoop` do, by which the model of the whole server describes them, also when `IsAckedBy` panics. -/
theorem C88_system {heap : List Sub} {os : List SList.Op} {s : SList} {ls : List (List Nat)} (hv : ∀ i, .add i ∈ os → i < heap.length) (hr : (SList.new heap).run os = some (s, ls)) (k : Nat) :
    (∃ s', s.ackFrom k (Spec.listed s).length s.subs.front = some (s', (ackLoop s.heap k (Spec.listed s)).2) ∧ Spec.listed s' = (ackLoop s.heap k (Spec.listed s)).1 ∧ s'.heap = s.heap) ∧
    (∃ s', s.nackFrom k (Spec.listed s).length s.subs.front = some (s', (nackLoop s.heap k (Spec.listed s)).2) ∧ Spec.listed s' = (nackLoop s.heap k (Spec.listed s)).1 ∧ s'.heap = s.heap) := by
  obtain ⟨h, _⟩ := list_run listInv_new hv hr
  have hl : (Spec.listed s).length = s.subs.elems.length := by simp [Spec.listed]
  rw [hl]
  obtain ⟨t1, a1, a2, _⟩ := ackFrom_eq k s.subs.elems [] _ s rfl h.ids (Nat.le_refl _)
  obtain ⟨t2, b1, b2, _⟩ := nackFrom_eq k s.subs.elems [] _ s rfl h.ids (Nat.le_refl _)
  exact ⟨⟨_, a1, a2, rfl⟩, ⟨_, b1, b2, rfl⟩⟩

/-! ## Which subscriptions can be added -/

theorem flag_lt {heap : List Sub} {i : Nat} (h : (deref heap i).inList = true) : i < heap.length := by
  apply Nat.lt_of_not_le
  intro hl
  unfold deref at h
  rw [List.getD_eq_getElem?_getD, List.getElem?_eq_none hl] at h
  cases h

theorem flag_unmark {s : SList} {i j : Nat} (h : (deref (s.mark j false).heap i).inList = true) : i ≠ j ∧ (deref s.heap i).inList = true := by
  rw [deref_mark] at h
  split at h
  · cases h
  · rename_i hne
    exact ⟨fun e => hne ⟨e.symm, flag_lt h⟩, h⟩

/-- The subscription was handed out by a call that leaves its mark. -/
def LeftMarked (o : SList.Op) (l : List Nat) (i : Nat) : Prop := i ∈ l ∧ ((∃ id, o = .find id) ∨ (∃ n, o = .ack n) ∨ (∃ n, o = .nack n))

theorem flag_step {heap : List Sub} {s s' : SList} {o : SList.Op} {l : List Nat} (h : ListInv heap s) (hv : ∀ i, o = .add i → i < heap.length)
    (hs : s.step s.subs.elems.length o = some (s', l)) {i : Nat} (hi : (deref s'.heap i).inList = true) :
    i ∈ Spec.listed s' ∨ (i ∉ Spec.listed s ∧ (deref s.heap i).inList = true) ∨ LeftMarked o l i := by
  obtain ⟨_, e⟩ := list_step h hv hs
  rw [← listCall_congr (f := deref s.heap) h.same] at e
  have hfront : s.subs.front = s.subs.elems.head?.map (·.1) := rfl
  cases o with
  | add j =>
    simp only [SList.step, SList.add] at hs
    split at hs
    · cases hs
    · cases hs
      simp only [Spec.listCall, Prod.mk.injEq] at e
      rw [e.1, List.mem_append, List.mem_singleton]
      rw [deref_mark] at hi
      split at hi
      · rename_i hij; exact .inl (.inr hij.1.symm)
      · by_cases hm : i ∈ Spec.listed s
        · exact .inl (.inl hm)
        · exact .inr (.inl ⟨hm, hi⟩)
  | get =>
    simp only [SList.step, Option.some.injEq, Prod.mk.injEq] at hs
    obtain ⟨rfl, rfl⟩ := hs
    simp only [Spec.listCall, Prod.mk.injEq] at e
    cases he : s.subs.elems with
    | nil =>
      have : s.get = (none, s) := by simp [SList.get, LList.front, he]
      rw [this] at hi
      exact .inr (.inl ⟨by simp [Spec.listed, he], hi⟩)
    | cons a t =>
      obtain ⟨e', j⟩ := a
      have hv : s.subs.value e' = some j := by simp [LList.value, he, valueIn]
      have hg : s.get = (some j, (s.withElems t).mark j false) := by
        simp only [SList.get, LList.front, he, List.head?_cons, Option.map_some, hv]
        rw [remove_eq (pre := []) he h.ids]; rfl
      rw [hg] at hi
      obtain ⟨h1, h2⟩ := flag_unmark hi
      by_cases hm : i ∈ Spec.listed s
      · left
        rw [e.1]
        simp only [Spec.listed, he, List.map_cons, List.mem_cons] at hm
        simp only [Spec.listed, he, List.map_cons, List.drop_one, List.tail_cons]
        exact hm.resolve_left h1
      · exact .inr (.inl ⟨hm, h2⟩)
  | remove j =>
    simp only [SList.step, hfront] at hs
    simp only [Spec.listCall, Prod.mk.injEq] at e
    rcases removeFrom_eq j s.subs.elems [] _ s rfl h.ids (Nat.le_refl _) with ⟨a, b⟩ | ⟨e', l1, r, a, b, c⟩
    · rw [b] at hs
      cases hs
      by_cases hm : i ∈ Spec.listed s
      · exact .inl hm
      · exact .inr (.inl ⟨hm, hi⟩)
    · rw [c] at hs
      cases hs
      obtain ⟨h1, h2⟩ := flag_unmark hi
      by_cases hm : i ∈ Spec.listed s
      · left
        rw [e.1, List.mem_filter]
        exact ⟨hm, by simpa using h1⟩
      · exact .inr (.inl ⟨hm, h2⟩)
  | find id =>
    simp only [SList.step, hfront] at hs
    have hh : s'.heap = s.heap := by
      rcases findFrom_eq id s.subs.elems [] _ s rfl h.ids (Nat.le_refl _) with ⟨a, b⟩ | ⟨e', j, l1, r, a, b, c, d⟩
      · rw [b] at hs; cases hs; rfl
      · rw [d] at hs; cases hs; rfl
    rw [hh] at hi
    by_cases hm : i ∈ Spec.listed s
    · simp only [Spec.listCall] at e
      split at e
      · simp only [Prod.mk.injEq] at e; exact .inl (by rw [e.1]; exact hm)
      · rename_i j hj
        simp only [Prod.mk.injEq] at e
        by_cases hij : i = j
        · exact .inr (.inr ⟨by rw [e.2, hij]; simp, .inl ⟨id, rfl⟩⟩)
        · exact .inl (by rw [e.1, List.mem_filter]; exact ⟨hm, by simpa using hij⟩)
    · exact .inr (.inl ⟨hm, hi⟩)
  | ack n =>
    simp only [SList.step, hfront] at hs
    have hh : s'.heap = s.heap := by
      obtain ⟨t', a1, _, _⟩ := ackFrom_eq n s.subs.elems [] _ s rfl h.ids (Nat.le_refl _)
      rw [a1] at hs
      simp only [Option.bind_some] at hs
      split at hs <;> cases hs
      rfl
    rw [hh] at hi
    by_cases hm : i ∈ Spec.listed s
    · simp only [Spec.listCall, Prod.mk.injEq] at e
      cases ha : Spec.Acks (deref s.heap i).ack (deref s.heap i).msgId n with
      | true => exact .inr (.inr ⟨by rw [e.2, List.mem_filter]; exact ⟨hm, ha⟩, .inr (.inl ⟨n, rfl⟩)⟩)
      | false => exact .inl (by rw [e.1, List.mem_filter]; exact ⟨hm, by rw [ha]; rfl⟩)
    · exact .inr (.inl ⟨hm, hi⟩)
  | nack n =>
    simp only [SList.step, hfront] at hs
    have hh : s'.heap = s.heap := by
      obtain ⟨t', a1, _, _⟩ := nackFrom_eq n s.subs.elems [] _ s rfl h.ids (Nat.le_refl _)
      rw [a1] at hs
      cases hs
      rfl
    rw [hh] at hi
    by_cases hm : i ∈ Spec.listed s
    · simp only [Spec.listCall, Prod.mk.injEq] at e
      cases ha : ((deref s.heap i).msgId == n) with
      | true => exact .inr (.inr ⟨by rw [e.2, List.mem_filter]; exact ⟨hm, ha⟩, .inr (.inr ⟨n, rfl⟩)⟩)
      | false => exact .inl (by rw [e.1, List.mem_filter]; exact ⟨hm, by rw [ha]; rfl⟩)
    · exact .inr (.inl ⟨hm, hi⟩)

theorem flag_run {heap : List Sub} {i : Nat} : ∀ {os : List SList.Op} {s s' : SList} {ls : List (List Nat)}, ListInv heap s → (∀ i, .add i ∈ os → i < heap.length) →
    s.run os = some (s', ls) → (deref s'.heap i).inList = true →
    i ∈ Spec.listed s' ∨ (i ∉ Spec.listed s ∧ (deref s.heap i).inList = true) ∨ ∃ (k : Nat) (o : SList.Op) (l : List Nat), os[k]? = some o ∧ ls[k]? = some l ∧ LeftMarked o l i
  | [], s, s', ls, h, hv, hr, hi => by
    cases hr
    by_cases hm : i ∈ Spec.listed s
    · exact .inl hm
    · exact .inr (.inl ⟨hm, hi⟩)
  | o :: os, s, s', ls, h, hv, hr, hi => by
    simp only [SList.run] at hr
    split at hr
    · cases hr
    · rename_i s1 l h1
      obtain ⟨i1, _⟩ := list_step h (fun i hi => hv i (hi ▸ List.mem_cons_self)) h1
      cases h2 : s1.run os with
      | none => rw [h2] at hr; cases hr
      | some p =>
        rw [h2] at hr
        cases hr
        rcases flag_run i1 (fun i hi => hv i (List.mem_cons_of_mem _ hi)) h2 hi with a | ⟨a, b⟩ | ⟨k, o', l', a, b, c⟩
        · exact .inl a
        · rcases flag_step h (fun i hi => hv i (hi ▸ List.mem_cons_self)) h1 b with d | d | d
          · exact absurd d a
          · exact .inr (.inl d)
          · exact .inr (.inr ⟨0, o, l, rfl, rfl, d⟩)
        · exact .inr (.inr ⟨k + 1, o', l', a, b, c⟩)

/-- **C88**, `Add`: a subscription that is in the list cannot be added again; and if one that is not in the list cannot be added, `Ack`, `Nack` or `FindByIdAndRemove` has taken it out before.

`_partial`: the second case, see `C88_false`. -/
theorem C88_add_partial {heap : List Sub} {os : List SList.Op} {s : SList} {ls : List (List Nat)} (h0 : ∀ x ∈ heap, x.inList = false) (hv : ∀ i, .add i ∈ os → i < heap.length)
    (hr : (SList.new heap).run os = some (s, ls)) (i : Nat) :
    (i ∈ Spec.listed s → s.add i = none) ∧
    (s.add i = none → i ∈ Spec.listed s ∨ ∃ (k : Nat) (o : SList.Op) (l : List Nat), os[k]? = some o ∧ ls[k]? = some l ∧ i ∈ l ∧ ((∃ id, o = .find id) ∨ (∃ n, o = .ack n) ∨ (∃ n, o = .nack n))) := by
  obtain ⟨h, _⟩ := list_run listInv_new hv hr
  constructor
  · intro hi; simp [SList.add, h.flag i hi]
  · intro ha
    have hf : (deref s.heap i).inList = true := by
      cases hf : (deref s.heap i).inList with
      | true => rfl
      | false => simp [SList.add, hf] at ha
    rcases flag_run listInv_new hv hr hf with a | ⟨_, a⟩ | a
    · exact .inl a
    · exfalso
      change (deref heap i).inList = true at a
      have hl : i < heap.length := flag_lt a
      have : deref heap i = heap[i] := by unfold deref; rw [List.getD_eq_getElem?_getD, List.getElem?_eq_getElem hl]; rfl
      rw [this, h0 _ (List.getElem_mem hl)] at a
      cases a
    · exact .inr a

namespace ListEx
/-- Four subscriptions that have been sent the messages 1 to 4. -/
def four : List Sub :=
  [⟨b!"/queue/a", b!"1", b!"client", 1, false, none⟩, ⟨b!"/queue/a", b!"2", b!"client-individual", 2, false, none⟩, ⟨b!"/queue/b", b!"3", b!"client", 3, false, none⟩, ⟨b!"/queue/b", b!"4", b!"client", 4, false, none⟩]
def calls : List SList.Op := [.add 0, .add 1, .add 2, .add 3, .ack 2, .get, .add 2, .remove 3, .add 3]
def after : SList := (((SList.new four).run calls).map (·.1)).getD (SList.new four)
def handed : List (List Nat) := (((SList.new four).run calls).map (·.2)).getD []
theorem calls_run : (SList.new four).run calls = some (after, handed) := by decide +kernel
theorem calls_ok : ∀ i, .add i ∈ calls → i < four.length := by
  intro i hi
  simp [calls] at hi
  simp [four]; omega
end ListEx

open ListEx in
/-- **C88** is false as worded for `Add`: a subscription that `Ack` has taken out is in no list any more and cannot be added: `Ack`, `Nack` and `FindByIdAndRemove` leave `subList` set (`server/client/subscription_list.go:57-97`), and `Add` panics.
(The server is brought down by it: C42.) -/
theorem C88_false : (∃ s ls, (SList.new four).run [.add 0, .ack 1] = some (s, ls) ∧ Spec.listed s = [] ∧ s.add 0 = none) ∧
    (∃ s ls, (SList.new four).run [.add 0, .nack 1] = some (s, ls) ∧ Spec.listed s = [] ∧ s.add 0 = none) ∧
    (∃ s ls, (SList.new four).run [.add 0, .find b!"1"] = some (s, ls) ∧ Spec.listed s = [] ∧ s.add 0 = none) :=
  ⟨⟨(((SList.new four).run [.add 0, .ack 1]).map (·.1)).getD (SList.new four), [[], [0]], by decide +kernel, by decide +kernel, by decide +kernel⟩,
   ⟨(((SList.new four).run [.add 0, .nack 1]).map (·.1)).getD (SList.new four), [[], [0]], by decide +kernel, by decide +kernel, by decide +kernel⟩,
   ⟨(((SList.new four).run [.add 0, .find b!"1"]).map (·.1)).getD (SList.new four), [[], [0]], by decide +kernel, by decide +kernel, by decide +kernel⟩⟩

/-! ## The theorems say something -/

namespace ListEx

/-- Of four, the ACK of message 2 takes the first two, next to each other. The rest can be taken out and added again. -/
example : Spec.listed after = [2, 3] ∧ handed = [[], [], [], [], [0, 1], [2], [], [], []] := by decide +kernel
example := C88_sequence calls_ok calls_run
example := C88_ends calls_ok calls_run (.ack 3)
example : after.step 2 (.ack 3) ≠ none := fun h => by
  rcases (C88_ends calls_ok calls_run (.ack 3)).2.1 h with ⟨_, e, _⟩ | ⟨_, _, j, hj, hm⟩
  · cases e
  · have : j = 2 ∨ j = 3 := by
      have e : Spec.listed after = [2, 3] := by decide +kernel
      rw [e] at hj; simpa using hj
    rcases this with rfl | rfl <;> exact hm (.inr (.inl (by decide +kernel)))
example : ∃ l, after.forEachFrom 2 after.subs.front = some l ∧ l.map (·.1) = Spec.listed after ∧ ∀ k i b, l[k]? = some (i, b) → b = decide (k + 1 = (Spec.listed after).length) := C88_forEach calls_ok calls_run (by decide +kernel)
example : after.forEachFrom 2 after.subs.front = some [(2, false), (3, true)] := by decide +kernel
example := C88_system calls_ok calls_run 3
example : after.add 3 = none ∧ after.add 0 = none :=
  ⟨(C88_add_partial (by decide +kernel) calls_ok calls_run 3).1 (by decide +kernel), by decide +kernel⟩

end ListEx
end Stomp.Server
