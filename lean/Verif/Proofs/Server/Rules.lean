import Verif.Proofs.Server.Dialogue
/-! # C78: the rules of `Spec/Dialogue` leave nothing open and never contradict each other -/
namespace Stomp.Server
open Stomp
open Classical in
/-- The reason as a function. -/
noncomputable def reason (auth : Bytes → Bytes → Bool) (wrong : Bytes → Bytes) (st : Spec.St) (f : Frame) : Option (Bool × Bytes) :=
  if st.opened = false then
    if f.command ≠ b!"CONNECT" ∧ f.command ≠ b!"STOMP" then some (false, b!"expected CONNECT or STOMP frame")
    else if ∃ r, Spec.hdr f b!"receipt" = some r then some (false, b!"receipt header prohibited in CONNECT or STOMP frame")
    else if auth ((Spec.hdr f b!"login").getD []) ((Spec.hdr f b!"passcode").getD []) = false then some (false, b!"authentication failed")
    else if Spec.offers f b!"1.1" ∨ Spec.offers f b!"1.2" then
      if ∃ x y, Spec.beats f x y then none else some (false, b!"invalid format for heart-beat")
    else if Spec.offers f b!"1.0" ∨ Spec.hdr f b!"accept-version" = none ∧ f.command = b!"CONNECT" then some (false, b!"unsupported version")
    else if ∃ av, Spec.hdr f b!"accept-version" = some av then some (false, b!"incompatible version")
    else some (false, b!"missing header: accept-version")
  else if f.command = b!"CONNECT" ∨ f.command = b!"STOMP" ∨ f.command ∈ Spec.serverCommands then some (false, b!"unexpected frame command")
  else if f.command = b!"DISCONNECT" then none
  else if f.command = b!"BEGIN" then
    match Spec.hdr f b!"transaction" with
    | none => some (false, b!"missing header: transaction")
    | some t => match st.tx t with | none => none | some _ => some (true, b!"transaction already in progress")
  else if f.command = b!"COMMIT" ∨ f.command = b!"ABORT" then
    match Spec.hdr f b!"transaction" with
    | none => some (false, b!"missing header: transaction")
    | some t => match st.tx t with | none => some (true, b!"unknown transaction") | some _ => none
  else if f.command = b!"SUBSCRIBE" then
    match Spec.hdr f b!"id" with
    | none => some (false, b!"missing header: id")
    | some i => match Spec.hdr f b!"destination" with
      | none => some (false, b!"missing header: destination")
      | some _ => if st.subs i = true then some (false, b!"subscription already exists") else none
  else if f.command = b!"UNSUBSCRIBE" then
    match Spec.hdr f b!"id" with
    | none => some (false, b!"missing header: id")
    | some i => if st.subs i = true then none else some (false, b!"subscription not found")
  else if (f.command = b!"ACK" ∨ f.command = b!"NACK") ∧ ¬∃ n, Spec.names f n then
    if hs : ∃ s, Spec.naming f s then some (false, wrong hs.choose) else some (false, b!"missing header: message-id")
  else if f.command = b!"SEND" ∨ f.command = b!"ACK" ∨ f.command = b!"NACK" then
    match Spec.hdr f b!"transaction" with
    | none => none
    | some t => match st.tx t with | none => some (true, b!"unknown transaction") | some _ => none
  else some (false, b!"unknown command")

theorem naming_unique {f : Frame} {s s' : Bytes} (h : Spec.naming f s) (h' : Spec.naming f s') : s = s' := by
  rcases h with h | ⟨h1, h2⟩ <;> rcases h' with h' | ⟨h3, h4⟩ <;> simp_all

theorem not_command {f : Frame} {k k' : Bytes} (h : f.command = k) (hne : k ≠ k') : f.command ≠ k' := by rw [h]; exact hne

theorem refused_reason {auth : Bytes → Bytes → Bool} {wrong : Bytes → Bytes} {st : Spec.St} {f : Frame} {l : Bool} {t : Bytes}
    (h : Spec.Refused auth wrong st f l t) : reason auth wrong st f = some (l, t) := by
  unfold reason
  cases h with
  | notConnect ho hc => rw [if_pos ho, if_pos hc]
  | connectReceipt ho hc r hr => rw [if_pos ho, if_neg (by rcases hc with h | h <;> simp [h]), if_pos ⟨r, hr⟩]
  | authentication ho hc hr ha => rw [if_pos ho, if_neg (by rcases hc with h | h <;> simp [h]), if_neg (by simp [hr]), if_pos ha]
  | tooOld ho hk h1 h2 hv =>
    rw [if_pos ho, if_neg (by rcases hk.command with h | h <;> simp [h]), if_neg (by simp [hk.noReceipt]), if_neg (by simp [hk.auth]),
      if_neg (by simp [h1, h2]), if_pos hv]
  | noVersion ho hk hc hv =>
    have no : ∀ v, ¬Spec.offers f v := by rintro v ⟨av, h, _⟩; rw [hv] at h; cases h
    rw [if_pos ho, if_neg (by rcases hk.command with h | h <;> simp [h]), if_neg (by simp [hk.noReceipt]), if_neg (by simp [hk.auth]),
      if_neg (by simp [no]), if_neg (by rw [hc]; simp [no]), if_neg (by simp [hv])]
  | incompatible ho hk av hv h =>
    rw [if_pos ho, if_neg (by rcases hk.command with h | h <;> simp [h]), if_neg (by simp [hk.noReceipt]), if_neg (by simp [hk.auth]),
      if_neg (by simp [h]), if_neg (by simp [h, hv]), if_pos ⟨av, hv⟩]
  | heartBeat ho hk hv hb =>
    rw [if_pos ho, if_neg (by rcases hk.command with h | h <;> simp [h]), if_neg (by simp [hk.noReceipt]), if_neg (by simp [hk.auth]),
      if_pos hv, if_neg hb]
  | unexpected ho hc => rw [if_neg (by simp [ho]), if_pos hc]
  | unknown ho hc =>
    simp only [Spec.clientCommands, Spec.serverCommands, List.mem_append, List.mem_cons, not_or] at hc
    simp [hc, ho, Spec.serverCommands]
  | noTransaction ho hc ht =>
    rcases hc with hc | hc | hc <;> simp [ho, hc, ht, Spec.serverCommands]
  | inProgress ho hc t ht l hl => simp [ho, hc, ht, hl, Spec.serverCommands]
  | unknownTx ho hc t ht hl =>
    rcases hc with hc | hc | hc | ⟨hc | hc, n, hn⟩
    · simp [ho, hc, ht, hl, Spec.serverCommands]
    · simp [ho, hc, ht, hl, Spec.serverCommands]
    · simp [ho, hc, ht, hl, Spec.serverCommands]
    · have : ¬¬∃ n, Spec.names f n := fun h => h ⟨n, hn⟩
      simp [ho, hc, ht, hl, Spec.serverCommands, this]
    · have : ¬¬∃ n, Spec.names f n := fun h => h ⟨n, hn⟩
      simp [ho, hc, ht, hl, Spec.serverCommands, this]
  | noId ho hc hi => rcases hc with hc | hc <;> simp [ho, hc, hi, Spec.serverCommands]
  | noDestination ho hc id hi hd => simp [ho, hc, hi, hd, Spec.serverCommands]
  | exists_ ho hc id dest hi hd hs => simp [ho, hc, hi, hd, hs, Spec.serverCommands]
  | notFound ho hc id hi hs => simp [ho, hc, hi, hs, Spec.serverCommands]
  | noMessage ho hc hn =>
    have nn : ¬∃ n, Spec.names f n := fun ⟨n, s, h, _⟩ => hn ⟨s, h⟩
    have hx : (f.command = b!"ACK" ∨ f.command = b!"NACK") ∧ ¬∃ n, Spec.names f n := ⟨hc, nn⟩
    rcases hc with hc | hc <;> simp only [hc, ho] at hx ⊢ <;> simp [hc, hn, nn, Spec.serverCommands]
  | noNumber ho hc s hs nn =>
    have hx : (f.command = b!"ACK" ∨ f.command = b!"NACK") ∧ ¬∃ n, Spec.names f n := ⟨hc, nn⟩
    have he : ∃ s, Spec.naming f s := ⟨s, hs⟩
    have hw : wrong he.choose = wrong s := by rw [naming_unique he.choose_spec hs]
    rcases hc with hc | hc <;> simp only [hc, ho] at hx ⊢ <;> simp [hc, he, hw, nn, Spec.serverCommands]

theorem beats_of {auth : Bytes → Bytes → Bool} {f : Frame} (h : Spec.accepts auth f) : ∃ x y, Spec.beats f x y := by
  rcases h.heartBeat with h | ⟨a, b, n, m, h⟩
  · exact ⟨0, 0, Or.inl ⟨h, rfl, rfl⟩⟩
  · exact ⟨n, m, Or.inr ⟨a, b, h.1, h.2.1, h.2.2.1, h.2.2.2.1, h.2.2.2.2⟩⟩

theorem step_reason {auth : Bytes → Bytes → Bool} {wrong : Bytes → Bytes} {st st' : Spec.St} {f : Frame}
    (h : Spec.Step auth st f st') : reason auth wrong st f = none := by
  unfold reason
  cases h with
  | connect ho ha =>
    have hv : Spec.offers f b!"1.1" ∨ Spec.offers f b!"1.2" := by
      obtain ⟨av, h1, h2⟩ := ha.version
      exact h2.imp (⟨av, h1, ·⟩) (⟨av, h1, ·⟩)
    rw [if_pos ho, if_neg (by rcases ha.command with h | h <;> simp [h]), if_neg (by simp [ha.noReceipt]), if_neg (by simp [ha.auth]),
      if_pos hv, if_pos (beats_of ha)]
  | disconnect ho hc => simp [ho, hc, Spec.serverCommands]
  | begin_ t ho hc ht hn => simp [ho, hc, ht, hn, Spec.serverCommands]
  | abort t l ho hc ht hl => simp [ho, hc, ht, hl, Spec.serverCommands]
  | commit t l ho hc ht hl => simp [ho, hc, ht, hl, Spec.serverCommands]
  | hold t l ho hc ht hl =>
    rcases hc with hc | ⟨hc | hc, n, hn⟩
    · simp [ho, hc, ht, hl, Spec.serverCommands]
    · simp [ho, hc, ht, hl, Spec.serverCommands]
      exact fun h => absurd hn (h n)
    · simp [ho, hc, ht, hl, Spec.serverCommands]
      exact fun h => absurd hn (h n)
  | now ho hc ht =>
    rcases hc with hc | ⟨hc | hc, n, hn⟩
    · simp [ho, hc, ht, Spec.serverCommands]
    · simp [ho, hc, ht, Spec.serverCommands]
      exact fun h => absurd hn (h n)
    · simp [ho, hc, ht, Spec.serverCommands]
      exact fun h => absurd hn (h n)
  | subscribe id dest ho hc hi hd hs => simp [ho, hc, hi, hd, hs, Spec.serverCommands]
  | unsubscribe id ho hc hi hs => simp [ho, hc, hi, hs, Spec.serverCommands]

theorem step_or_refused (auth : Bytes → Bytes → Bool) (wrong : Bytes → Bytes) (st : Spec.St) (f : Frame) :
    (∃ st', Spec.Step auth st f st') ∨ ∃ l t, Spec.Refused auth wrong st f l t := by
  cases ho : st.opened with
  | false =>
    by_cases hc : f.command = b!"CONNECT" ∨ f.command = b!"STOMP"
    case neg => exact Or.inr ⟨_, _, .notConnect ho (by simpa [not_or] using hc)⟩
    cases hr : Spec.hdr f b!"receipt" with
    | some r => exact Or.inr ⟨_, _, .connectReceipt ho hc r hr⟩
    | none =>
      cases ha : auth ((Spec.hdr f b!"login").getD []) ((Spec.hdr f b!"passcode").getD []) with
      | false => exact Or.inr ⟨_, _, .authentication ho hc hr ha⟩
      | true =>
        have hk : Spec.knocks auth f := ⟨hc, hr, ha⟩
        by_cases hv : Spec.offers f b!"1.1" ∨ Spec.offers f b!"1.2"
        · by_cases hb : ∃ x y, Spec.beats f x y
          · refine Or.inl ⟨_, .connect ho ⟨hc, hr, ha, ?_, ?_⟩⟩
            · rcases hv with ⟨av, h1, h2⟩ | ⟨av, h1, h2⟩
              · exact ⟨av, h1, Or.inl h2⟩
              · exact ⟨av, h1, Or.inr h2⟩
            · obtain ⟨x, y, hb⟩ := hb
              rcases hb with h | ⟨a, b, h⟩
              · exact Or.inl h.1
              · exact Or.inr ⟨a, b, x, y, h.1, h.2.1, h.2.2.1, h.2.2.2.1, h.2.2.2.2⟩
          · exact Or.inr ⟨_, _, .heartBeat ho hk hv hb⟩
        · rw [not_or] at hv
          by_cases h0 : Spec.offers f b!"1.0"
          · exact Or.inr ⟨_, _, .tooOld ho hk hv.1 hv.2 (Or.inl h0)⟩
          · cases hav : Spec.hdr f b!"accept-version" with
            | some av => exact Or.inr ⟨_, _, .incompatible ho hk av hav ⟨h0, hv⟩⟩
            | none =>
              rcases hc with hc | hc
              · exact Or.inr ⟨_, _, .tooOld ho hk hv.1 hv.2 (Or.inr ⟨hav, hc⟩)⟩
              · exact Or.inr ⟨_, _, .noVersion ho hk hc hav⟩
  | true =>
    have htr : Spec.transactional f → (∃ st', Spec.Step auth st f st') ∨ ∃ l t, Spec.Refused auth wrong st f l t := by
      intro hc
      cases ht : Spec.hdr f b!"transaction" with
      | none => exact Or.inl ⟨_, .now ho hc ht⟩
      | some t =>
        cases hl : st.tx t with
        | none => exact Or.inr ⟨_, _, .unknownTx ho (Or.inr (Or.inr hc)) t ht hl⟩
        | some l => exact Or.inl ⟨_, .hold t l ho hc ht hl⟩
    have hack : f.command = b!"ACK" ∨ f.command = b!"NACK" → (∃ st', Spec.Step auth st f st') ∨ ∃ l t, Spec.Refused auth wrong st f l t := by
      intro hc
      by_cases hn : ∃ n, Spec.names f n
      · exact htr (Or.inr ⟨hc, hn⟩)
      · by_cases hs : ∃ s, Spec.naming f s
        · obtain ⟨s, hs⟩ := hs
          exact Or.inr ⟨_, _, .noNumber ho hc s hs hn⟩
        · exact Or.inr ⟨_, _, .noMessage ho hc hs⟩
    by_cases hc : f.command ∈ Spec.clientCommands ++ Spec.serverCommands
    case neg => exact Or.inr ⟨_, _, .unknown ho hc⟩
    rcases List.mem_append.1 hc with hc | hc
    case inr => exact Or.inr ⟨_, _, .unexpected ho (Or.inr (Or.inr hc))⟩
    simp only [Spec.clientCommands, List.mem_cons, List.not_mem_nil, or_false] at hc
    rcases hc with hc | hc | hc | hc | hc | hc | hc | hc | hc | hc | hc
    · exact Or.inr ⟨_, _, .unexpected ho (Or.inl hc)⟩
    · exact Or.inr ⟨_, _, .unexpected ho (Or.inr (Or.inl hc))⟩
    · exact htr (Or.inl hc)
    · cases hi : Spec.hdr f b!"id" with
      | none => exact Or.inr ⟨_, _, .noId ho (Or.inl hc) hi⟩
      | some id =>
        cases hd : Spec.hdr f b!"destination" with
        | none => exact Or.inr ⟨_, _, .noDestination ho hc id hi hd⟩
        | some dest =>
          cases hs : st.subs id with
          | true => exact Or.inr ⟨_, _, .exists_ ho hc id dest hi hd hs⟩
          | false => exact Or.inl ⟨_, .subscribe id dest ho hc hi hd hs⟩
    · cases hi : Spec.hdr f b!"id" with
      | none => exact Or.inr ⟨_, _, .noId ho (Or.inr hc) hi⟩
      | some id =>
        cases hs : st.subs id with
        | true => exact Or.inl ⟨_, .unsubscribe id ho hc hi hs⟩
        | false => exact Or.inr ⟨_, _, .notFound ho hc id hi hs⟩
    · exact hack (Or.inl hc)
    · exact hack (Or.inr hc)
    · cases ht : Spec.hdr f b!"transaction" with
      | none => exact Or.inr ⟨_, _, .noTransaction ho (Or.inl hc) ht⟩
      | some t =>
        cases hl : st.tx t with
        | none => exact Or.inl ⟨_, .begin_ t ho hc ht hl⟩
        | some l => exact Or.inr ⟨_, _, .inProgress ho hc t ht l hl⟩
    · cases ht : Spec.hdr f b!"transaction" with
      | none => exact Or.inr ⟨_, _, .noTransaction ho (Or.inr (Or.inl hc)) ht⟩
      | some t =>
        cases hl : st.tx t with
        | none => exact Or.inr ⟨_, _, .unknownTx ho (Or.inl hc) t ht hl⟩
        | some l => exact Or.inl ⟨_, .commit t l ho hc ht hl⟩
    · cases ht : Spec.hdr f b!"transaction" with
      | none => exact Or.inr ⟨_, _, .noTransaction ho (Or.inr (Or.inr hc)) ht⟩
      | some t =>
        cases hl : st.tx t with
        | none => exact Or.inr ⟨_, _, .unknownTx ho (Or.inr (Or.inl hc)) t ht hl⟩
        | some l => exact Or.inl ⟨_, .abort t l ho hc ht hl⟩
    · exact Or.inl ⟨_, .disconnect ho hc⟩

/-- The meaning as a function. -/
def meaning (st : Spec.St) (f : Frame) : Spec.St :=
  let t := (Spec.hdr f b!"transaction").getD []
  let i := (Spec.hdr f b!"id").getD []
  if st.opened = false then { st with opened := true }
  else if f.command = b!"DISCONNECT" then st
  else if f.command = b!"BEGIN" then { st with tx := Spec.upd st.tx t (some []) }
  else if f.command = b!"ABORT" then { st with tx := Spec.upd st.tx t none }
  else if f.command = b!"COMMIT" then { st with tx := Spec.upd st.tx t none, done := st.done ++ (st.tx t).getD [] }
  else if f.command = b!"SUBSCRIBE" then { st with subs := Spec.upd st.subs i true }
  else if f.command = b!"UNSUBSCRIBE" then { st with subs := Spec.upd st.subs i false }
  else if (Spec.hdr f b!"transaction").isSome then { st with tx := Spec.upd st.tx t (some ((st.tx t).getD [] ++ [Spec.clean f])) }
  else { st with done := st.done ++ [Spec.clean f] }

theorem step_meaning {auth : Bytes → Bytes → Bool} {st st' : Spec.St} {f : Frame} (h : Spec.Step auth st f st') : st' = meaning st f := by
  unfold meaning
  cases h with
  | connect ho => simp [ho]
  | disconnect ho hc => simp [ho, hc]
  | begin_ t ho hc ht => simp [ho, hc, ht]
  | abort t l ho hc ht hl => simp [ho, hc, ht]
  | commit t l ho hc ht hl => simp [ho, hc, ht, hl]
  | hold t l ho hc ht hl => rcases hc with hc | ⟨hc | hc, _⟩ <;> simp [ho, hc, ht, hl]
  | now ho hc ht => rcases hc with hc | ⟨hc | hc, _⟩ <;> simp [ho, hc, ht]
  | subscribe id dest ho hc hi hd hs => simp [ho, hc, hi]
  | unsubscribe id ho hc hi hs => simp [ho, hc, hi]

theorem beats_unique {f : Frame} (hc : f.command = b!"CONNECT" ∨ f.command = b!"STOMP") {x y x' y' : Nat} (h : Spec.beats f x y) (h' : Spec.beats f x' y') :
    x = x' ∧ y = y' := by
  have h1 := (C10_server_parse f hc x y).2 h
  have h2 := (C10_server_parse f hc x' y').2 h'
  rw [h1] at h2
  injection h2 with h2
  injection h2 with h2 h3
  exact ⟨h2, h3⟩

theorem answer_unique {auth : Bytes → Bytes → Bool} {min : Int} {st : Spec.St} {f : Frame} {a a' : List Frame}
    (h : Spec.Answer auth min st f a) (h' : Spec.Answer auth min st f a') : a = a' := by
  cases h with
  | welcome ho ha v x y hb hv =>
    cases h' with
    | welcome _ _ v' x' y' hb' hv' =>
      obtain ⟨rfl, rfl⟩ := beats_unique ha.command hb hb'
      have : v = v' := by
        rcases hv with ⟨rfl, h⟩ | ⟨rfl, h, hn⟩ <;> rcases hv' with ⟨rfl, h'⟩ | ⟨rfl, h', hn'⟩
        · rfl
        · exact absurd h hn'
        · exact absurd h' hn
        · rfl
      rw [this]
    | silence ho' => rw [ho] at ho'; cases ho'
    | receipt ho' => rw [ho] at ho'; cases ho'
  | silence ho hc =>
    cases h' with
    | welcome ho' => rw [ho] at ho'; cases ho'
    | silence => rfl
    | receipt _ hc' => rcases hc with h | h; exact absurd h hc'.1; exact absurd h hc'.2
  | receipt ho hc =>
    cases h' with
    | welcome ho' => rw [ho] at ho'; cases ho'
    | silence _ hc' => rcases hc' with h | h; exact absurd h hc.1; exact absurd h hc.2
    | receipt => rfl

theorem dialogue_unique {auth : Bytes → Bytes → Bool} {min : Int} {fs fs' : List Frame} {st st' : Spec.St} {said said' : List Frame}
    (h : Spec.Dialogue auth min fs st said) (h' : Spec.Dialogue auth min fs' st' said') (e : fs = fs') : st = st' ∧ said = said' := by
  induction h generalizing fs' st' said' with
  | start =>
    cases h' with
    | start => exact ⟨rfl, rfl⟩
    | next => simp at e
  | next hd hs ha ih =>
    cases h' with
    | start => simp at e
    | next hd' hs' ha' =>
      obtain ⟨e1, e2⟩ := List.append_inj' e rfl
      injection e2 with e2
      subst e1 e2
      obtain ⟨rfl, rfl⟩ := ih hd' rfl
      exact ⟨(step_meaning hs).trans (step_meaning hs').symm, by rw [answer_unique ha ha']⟩

theorem dialogue_last {auth : Bytes → Bytes → Bool} {min : Int} {fs : List Frame} {st : Spec.St} {said : List Frame}
    (h : Spec.Dialogue auth min fs st said) {h' : List Frame} {f : Frame} (e : fs = h' ++ [f]) :
    ∃ st0 said0, Spec.Dialogue auth min h' st0 said0 ∧ Spec.Step auth st0 f st := by
  cases h with
  | start => simp at e
  | next hd hs ha =>
    obtain ⟨e1, e2⟩ := List.append_inj' e rfl
    injection e2 with e2
    subst e1 e2
    exact ⟨_, _, hd, hs⟩

end Stomp.Server
