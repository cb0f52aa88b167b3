import Verif.Model.Client.Connect
import Verif.Proofs.Codec
import Verif.Props.HeartBeat
/-! # C12, C14, C50: the connect handshake -/
namespace Stomp.Client
open Stomp

/-! ## C12 -/

/-- **C12.** `Connect` returns a connection exactly when the options are acceptable, the CONNECT frame could
be written, and the first thing the server sent is a CONNECTED frame whose version header is absent (or
empty) or one of 1.0, 1.1, 1.2 and whose heart-beat header is absent or well-formed; everything else (another
command, a heart-beat, garbage, end of stream, an unsupported version, a malformed heart-beat) is an error. -/
theorem C12_connect_iff (opts : List ConnOpt) (remote : Option Bytes) (wok : Bool) (inp : Bytes) :
    (∃ ci, (connect opts remote wok inp).2 = .ok ci) ↔
      (newConnOptions opts).isSome ∧ wok = true ∧
      ∃ f rest, readFrame inp = .frame f rest ∧ f.command = b!"CONNECTED" ∧
        (∀ v, Spec.firstValue f.header b!"version" = some v → v ∈ [[], b!"1.0", b!"1.1", b!"1.2"]) ∧
        (∀ hb, Spec.firstValue f.header b!"heart-beat" = some hb → (parseHeartBeat hb).isSome) := by
  have hget : ∀ (h : Header), h.get Hdr.version = (Spec.firstValue h b!"version").getD [] := by
    intro h; unfold Header.get; rw [contains_eq_firstValue]; rfl
  have hhb : ∀ (h : Header), h.contains Hdr.heartBeat = Spec.firstValue h b!"heart-beat" := by
    intro h; rw [contains_eq_firstValue]; rfl
  have hsup : ∀ v : Bytes, checkSupported v = true ↔ v ∈ [b!"1.0", b!"1.1", b!"1.2"] := by
    intro v; simp [checkSupported, V10, V11, V12, or_assoc]
  have hver : ∀ h : Header, ¬ (h.get Hdr.version ≠ [] ∧ checkSupported (h.get Hdr.version) = false) ↔
      (∀ v, Spec.firstValue h b!"version" = some v → v ∈ [[], b!"1.0", b!"1.1", b!"1.2"]) := by
    intro h
    rw [hget]
    cases hv : Spec.firstValue h b!"version" with
    | none => simp
    | some v =>
      simp only [Option.getD_some, Option.some.injEq, forall_eq']
      rw [← Bool.not_eq_true, hsup]
      simp only [List.mem_cons, List.not_mem_nil, or_false]
      constructor
      · intro hn
        by_cases he : v = []
        · exact Or.inl he
        · exact Or.inr (Classical.not_not.1 (fun h2 => hn ⟨he, h2⟩))
      · rintro (he | he) ⟨h1, h2⟩
        · exact h1 he
        · exact h2 he
  have hneg : ∀ (o : Options) (h : Header), (∃ p, negotiate o h = some p) ↔
      (∀ hb, Spec.firstValue h b!"heart-beat" = some hb → (parseHeartBeat hb).isSome) := by
    intro o h
    unfold negotiate
    rw [hhb]
    cases Spec.firstValue h b!"heart-beat" with
    | none => simp
    | some hb =>
      simp only [Option.some.injEq, forall_eq']
      cases parseHeartBeat hb <;> simp
  unfold connect
  cases newConnOptions opts with
  | none => simp
  | some o =>
    cases wok with
    | false => simp
    | true =>
      simp only [Bool.not_true, Bool.false_eq_true, if_false, Option.isSome_some, true_and]
      generalize resolveHost o remote = o'
      cases readFrame inp with
      | err e => simp [handleResponse]
      | heartbeat r => simp [handleResponse]
      | frame f r =>
        simp only [ReadRes.frame.injEq]
        have e : (∃ f' rest, (f = f' ∧ r = rest) ∧ f'.command = b!"CONNECTED" ∧
          (∀ v, Spec.firstValue f'.header b!"version" = some v → v ∈ [[], b!"1.0", b!"1.1", b!"1.2"]) ∧
          (∀ hb, Spec.firstValue f'.header b!"heart-beat" = some hb → (parseHeartBeat hb).isSome)) ↔
          (f.command = b!"CONNECTED" ∧
          (∀ v, Spec.firstValue f.header b!"version" = some v → v ∈ [[], b!"1.0", b!"1.1", b!"1.2"]) ∧
          (∀ hb, Spec.firstValue f.header b!"heart-beat" = some hb → (parseHeartBeat hb).isSome)) :=
          ⟨by rintro ⟨_, _, ⟨rfl, rfl⟩, h⟩; exact h, fun h => ⟨f, r, ⟨rfl, rfl⟩, h⟩⟩
        rw [e, ← hver, ← hneg o']
        unfold handleResponse
        simp only
        have hc : (f.command ≠ Cmd.connected) ↔ ¬ (f.command = b!"CONNECTED") := Iff.rfl
        by_cases h1 : f.command = b!"CONNECTED"
        · rw [if_neg (by rw [hc]; exact not_not_intro h1)]
          by_cases h2 : f.header.get Hdr.version ≠ [] ∧ checkSupported (f.header.get Hdr.version) = false
          · rw [if_pos h2]
            constructor
            · rintro ⟨_, h⟩; cases h
            · rintro ⟨_, h, _⟩; exact absurd h2 h
          · rw [if_neg h2]
            cases hn : negotiate o' f.header with
            | none =>
              constructor
              · rintro ⟨_, h⟩; cases h
              · rintro ⟨_, _, _, h⟩; cases h
            | some p => exact ⟨fun _ => ⟨h1, h2, p, rfl⟩, fun _ => ⟨_, rfl⟩⟩
        · rw [if_pos (by rw [hc]; exact h1)]
          constructor
          · rintro ⟨_, h⟩; cases h
          · rintro ⟨h, _⟩; exact absurd h h1

/-- **C12.** The version of the connection is the one the server announced, and is 1.0, 1.1 or 1.2; without
an announcement it is 1.0. Session and server are the announced ones. -/
theorem C12_version (opts : List ConnOpt) (remote : Option Bytes) (wok : Bool) (inp : Bytes) (ci : ConnInfo)
    (h : (connect opts remote wok inp).2 = .ok ci) :
    ∃ f rest, readFrame inp = .frame f rest ∧ f.command = b!"CONNECTED" ∧
      ci.version ∈ [b!"1.0", b!"1.1", b!"1.2"] ∧
      (∀ v, Spec.firstValue f.header b!"version" = some v → v ≠ [] → ci.version = v) ∧
      (Spec.firstValue f.header b!"version" = none → ci.version = b!"1.0") ∧
      ci.session = (Spec.firstValue f.header b!"session").getD [] ∧
      ci.server = (Spec.firstValue f.header b!"server").getD [] := by
  have hget : ∀ (h : Header), h.get Hdr.version = (Spec.firstValue h b!"version").getD [] := by
    intro h; unfold Header.get; rw [contains_eq_firstValue]; rfl
  unfold connect at h
  cases ho : newConnOptions opts with
  | none => rw [ho] at h; cases h
  | some o =>
    rw [ho] at h
    cases wok with
    | false => simp at h
    | true =>
      simp only [Bool.not_true, Bool.false_eq_true, if_false] at h
      revert h
      generalize resolveHost o remote = o'
      intro h
      cases hr : readFrame inp with
      | err e => rw [hr] at h; cases h
      | heartbeat r => rw [hr] at h; cases h
      | frame f r =>
        rw [hr] at h
        unfold handleResponse at h
        simp only at h
        split at h
        · cases h
        · rename_i hc
          split at h
          · cases h
          · rename_i hv
            split at h
            · cases h
            · cases h
              refine ⟨f, r, rfl, Classical.not_not.1 hc, ?_, ?_, ?_, ?_, ?_⟩
              · show (if f.header.get Hdr.version ≠ [] then f.header.get Hdr.version else V10) ∈ _
                split
                · rename_i hne
                  have : checkSupported (f.header.get Hdr.version) = true := by
                    cases hs : checkSupported (f.header.get Hdr.version) with
                    | true => rfl
                    | false => exact absurd ⟨hne, hs⟩ hv
                  simpa [checkSupported, V10, V11, V12, or_assoc] using this
                · simp [V10]
              · intro v hv hne
                show (if f.header.get Hdr.version ≠ [] then f.header.get Hdr.version else V10) = v
                rw [hget, hv]
                simp [hne]
              · intro hv
                show (if f.header.get Hdr.version ≠ [] then f.header.get Hdr.version else V10) = _
                rw [hget, hv]
                simp [V10]
              · show f.header.get Hdr.session = _
                unfold Header.get; rw [contains_eq_firstValue]; rfl
              · show f.header.get Hdr.server = _
                unfold Header.get; rw [contains_eq_firstValue]; rfl

/-- A realistic answer of a server. -/
def sampleConnected : Bytes := b!"CONNECTED\nversion:1.1\nsession:s1\nheart-beat:1000,2000\n\n\x00"

example : (connect [.host b!"h"] none true sampleConnected).2.toOption.map
    (fun ci => (ci.version, ci.readTimeout, ci.writeTimeout)) =
    some (b!"1.1", 65 * 1000000000, 2 * 1000000000) := by decide +kernel
example : (connect [] none true b!"CONNECTED\nversion:1.3\n\n\x00").2 =
    .error (.badVersion ⟨b!"CONNECTED", [(b!"version", b!"1.3")], []⟩) := rfl
example : (connect [] none true b!"\n").2 = .error .emptyFrame := rfl
example : (connect [] none true b!"RECEIPT\n\n\x00").2 = .error (.notConnected ⟨b!"RECEIPT", [], []⟩) := rfl

/-! ## C50 -/

/-- **C50, the claim**: the version of a connection is one the application asked for. -/
def C50_claim : Prop :=
  ∀ opts remote wok inp ci v, (connect opts remote wok inp).2 = .ok ci →
    opts = [ConnOpt.acceptVersion [v]] → ci.version = v

/-- **C50 is false of the code**: an application that accepts only 1.2 gets a 1.0 connection from a server
that announces no version (or any other supported one). -/
theorem C50_negation : ¬ C50_claim := by
  intro h
  have := h [.acceptVersion [b!"1.2"]] none true b!"CONNECTED\n\n\x00" _ b!"1.2" rfl rfl
  exact absurd this (by decide)

/-- **C50 (partial)**: what does hold: if the server answers with a version among the listed ones then that is
the version; and without an `AcceptVersion` option (all three versions accepted) the claim is true. Missing:
any check that the server's answer is one of the listed versions. -/
theorem C50_requested_partial (opts : List ConnOpt) (remote : Option Bytes) (wok : Bool) (inp : Bytes)
    (ci : ConnInfo) (h : (connect opts remote wok inp).2 = .ok ci) (listed : List Bytes)
    (hs : listed = [b!"1.0", b!"1.1", b!"1.2"] ∨ ∀ f rest, readFrame inp = .frame f rest →
      ∃ v, Spec.firstValue f.header b!"version" = some v ∧ v ∈ listed ∧ v ≠ []) :
    ci.version ∈ listed := by
  obtain ⟨f, rest, h1, _, h3, h4, _⟩ := C12_version opts remote wok inp ci h
  rcases hs with rfl | hs
  · exact h3
  · obtain ⟨v, hv, hm, hne⟩ := hs f rest h1
    rw [h4 v hv hne]; exact hm

example : (connect [.acceptVersion [b!"1.1", b!"1.2"]] none true sampleConnected).2.toOption.map (·.version) =
    some b!"1.1" := by decide +kernel

/-- **C12, C13.** A server that does not announce heart-beats gets none and owes none: without a heart-beat header in the
CONNECTED frame both timeouts of the connection are off. -/
theorem C13_not_announced (opts : List ConnOpt) (remote : Option Bytes) (wok : Bool) (inp : Bytes) (ci : ConnInfo)
    (f : Frame) (rest : Bytes) (h : (connect opts remote wok inp).2 = .ok ci) (hr : readFrame inp = .frame f rest)
    (hb : Spec.firstValue f.header b!"heart-beat" = none) : ci.readTimeout = 0 ∧ ci.writeTimeout = 0 := by
  have hhb : f.header.contains Hdr.heartBeat = none := by rw [contains_eq_firstValue]; exact hb
  unfold connect at h
  cases ho : newConnOptions opts with
  | none => rw [ho] at h; cases h
  | some o =>
    rw [ho] at h
    cases wok with
    | false => cases h
    | true =>
      simp only [Bool.not_true, Bool.false_eq_true, if_false, handleResponse, hr, negotiate, hhb] at h
      split at h
      · cases h
      · split at h
        · cases h
        · cases h; exact ⟨rfl, rfl⟩

example : (connect [.heartBeat 5000000000 5000000000] none true b!"CONNECTED\nversion:1.2\n\n\x00").2.toOption.map
    (fun ci => (ci.readTimeout, ci.writeTimeout)) = some (0, 0) := by decide +kernel

/-! ## C14 -/

/-- The last value an option list gives for a setting. -/
def lastOf {α : Type} (sel : ConnOpt → Option α) (opts : List ConnOpt) : Option α := (opts.filterMap sel).getLast?

theorem lastOf_cons {α : Type} (sel : ConnOpt → Option α) (o : ConnOpt) (opts : List ConnOpt) (d : α) :
    (lastOf sel (o :: opts)).getD d = (lastOf sel opts).getD ((sel o).getD d) := by
  unfold lastOf
  cases h : sel o with
  | none => simp [h]
  | some v =>
    simp only [List.filterMap_cons, h, Option.getD_some]
    cases hl : (opts.filterMap sel) with
    | nil => simp
    | cons a b => simp [List.getLast?_cons]

def selLogin : ConnOpt → Option (Bytes × Bytes) | .login l p => some (l, p) | _ => none
def selHost : ConnOpt → Option Bytes | .host h => some h | _ => none
def selStomp : ConnOpt → Option Bytes | .useStomp => some b!"STOMP" | _ => none
def selHeartBeat : ConnOpt → Option (Int × Int) | .heartBeat s r => some (s, r) | _ => none
def selVersions : ConnOpt → List Bytes | .acceptVersion vs => vs | _ => []
def selHeader : ConnOpt → Option (Bytes × Bytes) | .header k v => some (k, v) | _ => none

theorem addVersions_spec (vs : List Bytes) (o o' : Options) (h : addVersions o vs = some o') :
    o' = { o with acceptVersions := o.acceptVersions ++ vs } ∧ ∀ v ∈ vs, checkSupported v = true := by
  induction vs generalizing o with
  | nil => simp [addVersions] at h; subst h; simp
  | cons v vs ih =>
    simp only [addVersions] at h
    split at h
    · rename_i hv
      obtain ⟨h1, h2⟩ := ih _ h
      refine ⟨?_, ?_⟩
      · rw [h1]; simp
      · intro w hw
        rcases List.mem_cons.1 hw with rfl | hw
        · exact hv
        · exact h2 w hw
    · cases h

theorem applyOpts_spec (opts : List ConnOpt) (o o' : Options) (h : applyOpts o opts = some o') :
    o'.frameCommand = (lastOf selStomp opts).getD o.frameCommand ∧
    o'.host = (lastOf selHost opts).getD o.host ∧
    (o'.login, o'.passcode) = (lastOf selLogin opts).getD (o.login, o.passcode) ∧
    (o'.writeTimeout, o'.readTimeout) = (lastOf selHeartBeat opts).getD (o.writeTimeout, o.readTimeout) ∧
    o'.acceptVersions = o.acceptVersions ++ opts.flatMap selVersions ∧
    o'.header = o.header ++ opts.filterMap selHeader ∧
    ∀ v ∈ opts.flatMap selVersions, checkSupported v = true := by
  induction opts generalizing o with
  | nil => simp [applyOpts] at h; subst h; simp [lastOf]
  | cons x opts ih =>
    simp only [applyOpts] at h
    split at h
    · cases h
    · rename_i o1 h1
      obtain ⟨a1, a2, a3, a4, a5, a6, a7⟩ := ih o1 h
      simp only [lastOf_cons]
      cases x <;> simp only [applyOpt, Option.some.injEq] at h1
      case acceptVersion vs =>
        obtain ⟨b1, b2⟩ := addVersions_spec vs o o1 h1
        subst b1
        refine ⟨a1, a2, a3, a4, ?_, a6, ?_⟩
        · rw [a5]; simp [selVersions]
        · intro v hv
          simp only [List.flatMap_cons, List.mem_append] at hv
          rcases hv with hv | hv
          · exact b2 v hv
          · exact a7 v hv
      all_goals
        subst h1
        exact ⟨a1, a2, a3, a4, by simpa [selVersions] using a5,
          by simpa [selHeader, Header.add, List.filterMap_cons] using a6, by simpa [selVersions] using a7⟩

/-- An option list is accepted exactly when every listed version is supported. -/
theorem applyOpts_isSome (opts : List ConnOpt) (o : Options) :
    (applyOpts o opts).isSome ↔ ∀ v ∈ opts.flatMap selVersions, v ∈ [b!"1.0", b!"1.1", b!"1.2"] := by
  have hsup : ∀ v : Bytes, checkSupported v = true ↔ v ∈ [b!"1.0", b!"1.1", b!"1.2"] := by
    intro v; simp [checkSupported, V10, V11, V12, or_assoc]
  have hadd : ∀ (vs : List Bytes) o, (addVersions o vs).isSome ↔ ∀ v ∈ vs, v ∈ [b!"1.0", b!"1.1", b!"1.2"] := by
    intro vs
    induction vs with
    | nil => simp [addVersions]
    | cons v vs ih =>
      intro o
      simp only [addVersions]
      split
      · rename_i hv
        rw [ih]
        constructor
        · intro h w hw
          rcases List.mem_cons.1 hw with rfl | hw
          · exact (hsup _).1 hv
          · exact h w hw
        · intro h w hw; exact h w (by simp [hw])
      · rename_i hv
        simp only [Option.isSome_none, Bool.false_eq_true, false_iff]
        intro h
        exact hv ((hsup v).2 (h v (by simp)))
  induction opts generalizing o with
  | nil => simp [applyOpts]
  | cons x opts ih =>
    simp only [applyOpts, List.flatMap_cons]
    cases hx : applyOpt o x with
    | none =>
      cases x <;> simp only [applyOpt, reduceCtorEq] at hx
      case acceptVersion vs =>
        have := (hadd vs o)
        rw [hx] at this
        simp only [Option.isSome_none, Bool.false_eq_true, false_iff] at this ⊢
        intro h
        exact this (fun v hv => h v (by simp [selVersions, hv]))
    | some o1 =>
      simp only [ih]
      constructor
      · intro h v hv
        rcases List.mem_append.1 hv with hv | hv
        · cases x <;> simp only [selVersions, List.not_mem_nil] at hv
          have := (hadd _ o).1 (by simp only [applyOpt] at hx; rw [hx]; rfl)
          exact this v hv
        · exact h v hv
      · intro h v hv; exact h v (List.mem_append.2 (Or.inr hv))

theorem addHeader_eq (h h' : Header) : h.addHeader h' = h ++ h' := by
  unfold Header.addHeader
  induction h' generalizing h with
  | nil => simp
  | cons e h' ih => rw [List.foldl_cons, ih]; simp [Header.add]

/-- **C14.** The frame `Connect` writes: command, then host, heart-beat, login and passcode (if either is
non-empty), accept-version and then the custom entries in order: nothing else, in this order. Every value is
the last one given, with the documented defaults; accepted versions accumulate. -/
theorem C14_frame (opts : List ConnOpt) (remote : Option Bytes) (wok : Bool) (inp : Bytes) (f : Frame)
    (hf : (connect opts remote wok inp).1 = some f) :
    let login := (lastOf selLogin opts).getD ([], [])
    let host₀ := (lastOf selHost opts).getD []
    let hb := (lastOf selHeartBeat opts).getD (60 * 1000000000, 60 * 1000000000)
    let versions := if opts.flatMap selVersions = [] then [b!"1.0", b!"1.1", b!"1.2"] else opts.flatMap selVersions
    ∃ host, (host₀ ≠ [] → host = host₀) ∧ (host₀ = [] → ∀ r, remote = some r → r ≠ [] → host = r) ∧
      (host₀ = [] → remote.getD [] = [] → host = b!"default") ∧ host ≠ [] ∧
      f.command = (if ConnOpt.useStomp ∈ opts then b!"STOMP" else b!"CONNECT") ∧ f.body = [] ∧
      f.header =
        [(b!"host", host),
         (b!"heart-beat", fmtInt (Int.tdiv hb.1 1000000) ++ b!"," ++ fmtInt (Int.tdiv hb.2 1000000))] ++
        (if login.1 ≠ [] ∨ login.2 ≠ [] then [(b!"login", login.1), (b!"passcode", login.2)] else []) ++
        [(b!"accept-version", joinWith 44 versions)] ++ opts.filterMap selHeader := by
  simp only
  unfold connect at hf
  cases ho : newConnOptions opts with
  | none => rw [ho] at hf; cases hf
  | some o =>
    rw [ho] at hf
    have hf : (resolveHost o remote).newFrame = f := by
      simp only at hf
      split at hf <;> simpa using hf
    unfold newConnOptions at ho
    cases ho1 : applyOpts {} opts with
    | none => rw [ho1] at ho; cases ho
    | some o1 =>
      obtain ⟨a1, a2, a3, a4, a5, a6, -⟩ := applyOpts_spec opts {} o1 ho1
      rw [ho1] at ho
      simp only [List.nil_append] at a5 a6
      have hcmd : o1.frameCommand = if ConnOpt.useStomp ∈ opts then b!"STOMP" else b!"CONNECT" := by
        rw [a1]
        have : ∀ (l : List ConnOpt) d, (lastOf selStomp l).getD d =
            if ConnOpt.useStomp ∈ l then b!"STOMP" else d := by
          intro l
          induction l with
          | nil => intro d; simp [lastOf]
          | cons x l ih =>
            intro d
            rw [lastOf_cons, ih]
            cases x <;> simp [selStomp]
        rw [this]; rfl
      have hver : o.acceptVersions =
          (if opts.flatMap selVersions = [] then [b!"1.0", b!"1.1", b!"1.2"] else opts.flatMap selVersions) := by
        simp only at ho
        rw [a5] at ho
        split at ho
        · rename_i h0
          simp only [Option.some.injEq] at ho
          subst ho
          rw [if_pos (List.length_eq_zero_iff.1 h0)]
          rfl
        · rename_i h0
          simp only [Option.some.injEq] at ho
          subst ho
          rw [if_neg (fun h => h0 (List.length_eq_zero_iff.2 h)), a5]
      have hrest : o.frameCommand = o1.frameCommand ∧ o.host = o1.host ∧ o.login = o1.login ∧
          o.passcode = o1.passcode ∧ o.writeTimeout = o1.writeTimeout ∧ o.readTimeout = o1.readTimeout ∧
          o.header = o1.header := by
        simp only at ho
        split at ho <;> (simp only [Option.some.injEq] at ho; subst ho; simp)
      obtain ⟨r1, r2, r3, r4, r5, r6, r7⟩ := hrest
      have hlog : o.login = ((lastOf selLogin opts).getD ([], [])).1 ∧
          o.passcode = ((lastOf selLogin opts).getD ([], [])).2 := by
        rw [← a3, r3, r4]; exact ⟨rfl, rfl⟩
      have hhb : o.writeTimeout = ((lastOf selHeartBeat opts).getD (60 * 1000000000, 60 * 1000000000)).1 ∧
          o.readTimeout = ((lastOf selHeartBeat opts).getD (60 * 1000000000, 60 * 1000000000)).2 := by
        have e : ((60 * 1000000000, 60 * 1000000000) : Int × Int) = (({} : Options).writeTimeout, ({} : Options).readTimeout) := by
          decide
        rw [e, ← a4, r5, r6]; exact ⟨rfl, rfl⟩
      have hhost : o.host = (lastOf selHost opts).getD [] := by rw [r2, a2]
      refine ⟨(resolveHost o remote).host, ?_, ?_, ?_, ?_, ?_, ?_, ?_⟩
      · intro h
        unfold resolveHost
        rw [if_neg (by rw [hhost]; exact h), hhost]
      · intro h r hr hne
        unfold resolveHost
        rw [if_pos (by rw [hhost]; exact h), hr]
        simp [hne]
      · intro h hr
        unfold resolveHost
        rw [if_pos (by rw [hhost]; exact h)]
        cases remote with
        | none => simp [hhost, h]
        | some r => simp at hr; simp [hr]
      · unfold resolveHost
        split
        · cases remote with
          | none => simp_all
          | some r => simp only; split <;> simp_all
        · assumption
      · rw [← hf, ← hcmd, ← r1]
        unfold Options.newFrame resolveHost
        simp only
        split
        · cases remote <;> (simp only; split <;> rfl)
        · rfl
      · rw [← hf]; rfl
      · have hne : (resolveHost o remote).host ≠ [] := by
          unfold resolveHost
          split
          · cases remote with
            | none => simp_all
            | some r => simp only; split <;> simp_all
          · assumption
        have hkeep : (resolveHost o remote).login = o.login ∧ (resolveHost o remote).passcode = o.passcode ∧
            (resolveHost o remote).writeTimeout = o.writeTimeout ∧ (resolveHost o remote).readTimeout = o.readTimeout ∧
            (resolveHost o remote).acceptVersions = o.acceptVersions ∧ (resolveHost o remote).header = o.header := by
          unfold resolveHost
          split
          · cases remote <;> (simp only; split <;> simp)
          · simp
        obtain ⟨k1, k2, k3, k4, k5, k6⟩ := hkeep
        rw [← hf]
        unfold Options.newFrame
        simp only [addHeader_eq]
        rw [if_pos hne, k1, k2, k3, k4, k5, k6, hver, r7, a6, hlog.1, hlog.2, hhb.1, hhb.2]
        by_cases hl : ((lastOf selLogin opts).getD ([], [])).1 ≠ [] ∨ ((lastOf selLogin opts).getD ([], [])).2 ≠ []
        · rw [if_pos hl, if_pos hl]
          simp [Header.set, Hdr.host, Hdr.heartBeat, Hdr.login, Hdr.passcode, Hdr.acceptVersion, millisecond]
        · rw [if_neg hl, if_neg hl]
          simp [Header.set, Hdr.host, Hdr.heartBeat, Hdr.acceptVersion, millisecond]

/-- **C14.** Whatever custom entries are given, the server's `Header.Get` sees the option values for host,
heart-beat, accept-version and (if given) login and passcode. -/
theorem C14_not_overridden (opts : List ConnOpt) (remote : Option Bytes) (wok : Bool) (inp : Bytes) (f : Frame)
    (custom : List (Bytes × Bytes))
    (hf : (connect opts remote wok inp).1 = some f) :
    ∃ f', (connect (opts ++ custom.map fun e => .header e.1 e.2) remote wok inp).1 = some f' ∧
      f'.command = f.command ∧ f'.header = f.header ++ custom ∧
      (∀ k ∈ [b!"host", b!"heart-beat", b!"accept-version"], f'.header.get k = f.header.get k) ∧
      (∀ l p, lastOf selLogin opts = some (l, p) → (l ≠ [] ∨ p ≠ []) →
        f'.header.get b!"login" = l ∧ f'.header.get b!"passcode" = p) := by
  have e1 : (custom.map fun e => ConnOpt.header e.1 e.2).flatMap selVersions = [] := by
    induction custom with
    | nil => rfl
    | cons c cs ih => simp only [List.map_cons, List.flatMap_cons, selVersions, List.nil_append]; exact ih
  have e2 : (custom.map fun e => ConnOpt.header e.1 e.2).filterMap selHeader = custom := by
    clear e1
    induction custom with
    | nil => rfl
    | cons c cs ih => simp only [List.map_cons, List.filterMap_cons, selHeader]; rw [ih]
  have e3 : ∀ {α} (sel : ConnOpt → Option α), (∀ k v, sel (.header k v) = none) →
      lastOf sel (opts ++ custom.map fun e => ConnOpt.header e.1 e.2) = lastOf sel opts := by
    intro α sel hs
    unfold lastOf
    rw [List.filterMap_append]
    have : (custom.map fun e => ConnOpt.header e.1 e.2).filterMap sel = [] := by
      clear e1 e2
      induction custom with
      | nil => rfl
      | cons c cs ih => simp only [List.map_cons, List.filterMap_cons, hs]; exact ih
    rw [this, List.append_nil]
  have e4 : (ConnOpt.useStomp ∈ (opts ++ custom.map fun e => ConnOpt.header e.1 e.2)) ↔ ConnOpt.useStomp ∈ opts := by
    simp
  -- the extended list is accepted
  have hex : ∃ f', (connect (opts ++ custom.map fun e => .header e.1 e.2) remote wok inp).1 = some f' := by
    have hs : (applyOpts {} (opts ++ custom.map fun e => ConnOpt.header e.1 e.2)).isSome := by
      rw [applyOpts_isSome, List.flatMap_append, e1, List.append_nil]
      have : (applyOpts {} opts).isSome := by
        unfold connect newConnOptions at hf
        cases h : applyOpts {} opts with
        | none => rw [h] at hf; cases hf
        | some _ => rfl
      exact (applyOpts_isSome opts {}).1 this
    obtain ⟨o, ho⟩ := Option.isSome_iff_exists.1 hs
    have hn : (newConnOptions (opts ++ custom.map fun e => ConnOpt.header e.1 e.2)).isSome := by
      unfold newConnOptions
      rw [ho]
      simp only
      split <;> rfl
    obtain ⟨o', ho'⟩ := Option.isSome_iff_exists.1 hn
    unfold connect
    rw [ho']
    simp only
    split <;> exact ⟨_, rfl⟩
  obtain ⟨f', hf'⟩ := hex
  refine ⟨f', hf', ?_⟩
  have A := C14_frame opts remote wok inp f hf
  have B := C14_frame _ remote wok inp f' hf'
  simp only [e3 selLogin (fun _ _ => rfl), e3 selHost (fun _ _ => rfl), e3 selHeartBeat (fun _ _ => rfl),
    List.flatMap_append, e1, List.append_nil, List.filterMap_append, e2, e4] at B
  simp only at A
  obtain ⟨host, p1, p2, p3, p4, p5, p6, p7⟩ := A
  obtain ⟨host', q1, q2, q3, q4, q5, q6, q7⟩ := B
  have hh : host' = host := by
    by_cases h0 : (lastOf selHost opts).getD [] = []
    · cases remote with
      | none => rw [q3 h0 rfl, p3 h0 rfl]
      | some r =>
        by_cases hr : r = []
        · rw [q3 h0 (by simp [hr]), p3 h0 (by simp [hr])]
        · rw [q2 h0 r rfl hr, p2 h0 r rfl hr]
    · rw [q1 h0, p1 h0]
  subst hh
  refine ⟨by rw [p5, q5], by rw [p7, q7]; simp only [List.append_assoc], ?_, ?_⟩
  · intro k hk
    have : ∀ (a b : Header), (∃ v, a.contains k = some v) → (a ++ b).get k = a.get k := by
      intro a b h
      unfold Header.get
      congr 1
      induction a with
      | nil => simp [Header.contains] at h
      | cons x a ih =>
        simp only [List.cons_append, Header.contains] at h ⊢
        split
        · rfl
        · rename_i hx; rw [if_neg hx] at h; exact ih h
    have hcat : f'.header = f.header ++ custom := by rw [p7, q7]; simp only [List.append_assoc]
    rw [hcat]
    apply this
    rw [p7]
    have hmem : ∀ (h : Header) (v : Bytes), (k, v) ∈ h → ∃ v', h.contains k = some v' := by
      intro h v hv
      induction h with
      | nil => simp at hv
      | cons x h ih =>
        simp only [Header.contains]
        split
        · exact ⟨_, rfl⟩
        · rename_i hx
          rcases List.mem_cons.1 hv with e | hv
          · rw [← e] at hx; exact absurd rfl hx
          · exact ih hv
    simp only [List.mem_cons, List.not_mem_nil, or_false] at hk
    rcases hk with rfl | rfl | rfl
    · exact hmem _ host' (by simp)
    · exact hmem _ _ (List.mem_append_left _ (List.mem_append_left _ (List.mem_append_left _
        (List.mem_cons_of_mem _ (List.mem_cons_self)))))
    · exact hmem _ _ (List.mem_append_left _ (List.mem_append_right _ List.mem_cons_self))
  · intro l p hl hne
    rw [q7, hl]
    simp only [Option.getD_some]
    rw [if_pos hne]
    constructor <;> simp [Header.contains, Header.get]

example : (connect [.login b!"joe" b!"pw", .header b!"login" b!"root", .acceptVersion [b!"1.2"], .useStomp,
    .heartBeat 1500000000 0, .acceptVersion [b!"1.1"]] (some b!"10.0.0.1") true []).1 =
    some ⟨b!"STOMP", [(b!"host", b!"10.0.0.1"), (b!"heart-beat", b!"1500,0"), (b!"login", b!"joe"),
      (b!"passcode", b!"pw"), (b!"accept-version", b!"1.2,1.1"), (b!"login", b!"root")], []⟩ := by decide

/-- **C14.** On the wire: a peer that parses the bytes written gets exactly that frame, provided the custom
names are non-empty and none of them is `content-length`. -/
theorem C14_wire (opts : List ConnOpt) (remote : Option Bytes) (wok : Bool) (inp : Bytes) (f : Frame) (rest : Bytes)
    (hf : (connect opts remote wok inp).1 = some f)
    (hc : ∀ e ∈ opts.filterMap selHeader, e.1 ≠ [] ∧ e.1 ≠ b!"content-length") :
    readFrame (writeFrame (some f) ++ rest) = .frame f rest := by
  have A := C14_frame opts remote wok inp f hf
  simp only at A
  obtain ⟨host, -, -, -, -, p5, p6, p7⟩ := A
  apply readFrame_writeFrame
  have hn : ∀ e ∈ f.header, e.1 ≠ [] ∧ e.1 ≠ b!"content-length" := by
    intro e he
    rw [p7] at he
    simp only [List.mem_append, List.mem_cons, List.not_mem_nil, or_false] at he
    rcases he with (((rfl | rfl) | he) | rfl) | he
    · simp
    · simp
    · split at he
      · simp only [List.mem_cons, List.not_mem_nil, or_false] at he
        rcases he with rfl | rfl <;> simp
      · simp at he
    · simp
    · exact hc e he
  refine ⟨?_, fun e he => (hn e he).1, ?_⟩
  · rw [p5]; split <;> simp [Spec.commands]
  · unfold Spec.BodyOk
    have : Spec.firstValue f.header b!"content-length" = none := by
      unfold Spec.firstValue
      rw [Option.map_eq_none_iff, List.find?_eq_none]
      intro e he
      simpa using (hn e he).2
    rw [this, p6]
    simp

/-- Without the restriction C14 fails on the wire: a custom `content-length` entry makes the CONNECT frame
unreadable. -/
theorem C14_wire_restriction_needed :
    ∃ f, (connect [.header b!"content-length" b!"5"] none true []).1 = some f ∧
      readFrame (writeFrame (some f) ++ writeFrame (some f)) = .err .invalidFrameFormat :=
  ⟨_, rfl, by decide +kernel⟩

end Stomp.Client
