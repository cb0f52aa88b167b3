import Verif.Proofs.Standard
import Verif.Props.Codec
import Verif.Props.Client.Connect
/-!
# Property C91: the library understands, and is understood by, peers that follow the STOMP specification
-/
namespace Stomp
open Stomp.Std

/-- **C91** (1). In version 1.2 whatever well-formed frame the library writes, other than CONNECT and CONNECTED, is that frame for everyone who reads as the specification says. -/
theorem C91_understood_partial (f : Frame) (rest : Bytes) (hw : Spec.WellFormed f) (h1 : f.command ≠ b!"CONNECT") (h2 : f.command ≠ b!"CONNECTED") :
    decode .v12 (writeFrame (some f) ++ rest) = some (f, rest) := by
  refine decode_write rest hw (fun e _ s _ => ⟨fun h => absurd rfl h, fun h => ?_⟩)
  simp [exempt, h1, h2] at h

/-- **C91** (2). In version 1.2 whatever is, for everyone who reads as the specification says, a frame other than CONNECT and CONNECTED, is that frame for the library (bodies
with a content-length up to 4 GiB). -/
theorem C91_understands_partial (inp rest : Bytes) (f : Frame) (h : decode .v12 inp = some (f, rest)) (h1 : f.command ≠ b!"CONNECT") (h2 : f.command ≠ b!"CONNECTED")
    (hb : f.body.length < 2 ^ 32) : readFrame inp = .frame f rest := by
  refine decode_sound h (fun e _ s _ => ⟨fun h => absurd rfl h, fun h => ?_⟩) hb
  simp [exempt, h1, h2] at h

/-- **C91** (3). The same for all versions and commands, with what is needed: headers without the octets that are escaped where they must not be, and without CR before 1.2. -/
theorem C91_versions_partial (v : Ver) :
    (∀ f rest, Spec.WellFormed f → Writable v f → decode v (writeFrame (some f) ++ rest) = some (f, rest)) ∧
    (∀ inp f rest, decode v inp = some (f, rest) → Readable v f → f.body.length < 2 ^ 32 → readFrame inp = .frame f rest) :=
  ⟨fun _ rest hw hp => decode_write rest hw hp, fun _ _ _ h hp hb => decode_sound h hp hb⟩

/-- **C91** (4). The same for streams, with heart-beats between the frames: what the library writes, and what it reads. -/
theorem C91_streams_partial (v : Ver) :
    (∀ items : List (Option Frame), (∀ f, some f ∈ items → Spec.WellFormed f ∧ Writable v f) → Stream v (writeAll items) (items.filterMap id)) ∧
    (∀ inp fs, Stream v inp fs → (∀ f ∈ fs, Readable v f ∧ f.body.length < 2 ^ 32) → (readAll inp).1.filterMap id = fs ∧ (readAll inp).2 = .eof) := by
  constructor
  · intro items
    induction items with
    | nil => intro _; exact .done
    | cons it items ih =>
      intro h
      have ih := ih (fun f hf => h f (List.mem_cons_of_mem _ hf))
      have e : writeAll (it :: items) = writeFrame it ++ writeAll items := by simp [writeAll]
      rw [e]
      cases it with
      | none => exact .eol [10] (.inl rfl) ih
      | some f =>
        obtain ⟨hw, hp⟩ := h f List.mem_cons_self
        exact .frame (decode_write _ hw hp) ih
  · intro inp fs hs
    induction hs with
    | done => intro _; exact ⟨rfl, rfl⟩
    | @eol r fs e he _ ih =>
      intro h
      obtain ⟨i1, i2⟩ := ih h
      have hr : readFrame (e ++ r) = .heartbeat r := by
        rcases he with rfl | ⟨_, rfl⟩
        · exact (C06_heartbeat _ _).2 (.inl rfl)
        · exact (C06_heartbeat _ _).2 (.inr rfl)
      rw [readAll_heartbeat _ _ hr]
      exact ⟨by simpa using i1, i2⟩
    | @frame inp r f fs hd _ ih =>
      intro h
      obtain ⟨i1, i2⟩ := ih (fun g hg => h g (List.mem_cons_of_mem _ hg))
      obtain ⟨hp, hb⟩ := h f List.mem_cons_self
      rw [readAll_frame _ _ _ (decode_sound hd hp hb)]
      exact ⟨by simpa using i1, i2⟩

/-- The claim as it stands is false. In every version: a passcode with a backslash is, for a server that follows the specification, another passcode. -/
theorem C91_passcode_false (v : Ver) :
    ∃ f g, (Client.connect [.login b!"user" b!"a\\b"] (some b!"mq") true []).1 = some f ∧ f.header.get b!"passcode" = b!"a\\b" ∧
      decode v (writeFrame (some f)) = some (g, []) ∧ g.header.get b!"passcode" = b!"a\\\\b" := by
  cases v
  · exact ⟨_, _, rfl, by decide +kernel, rfl, by decide +kernel⟩
  · exact ⟨_, _, rfl, by decide +kernel, rfl, by decide +kernel⟩
  · exact ⟨_, _, rfl, by decide +kernel, rfl, by decide +kernel⟩

/-- And whoever connects to `::1`, without saying what host they want, asks such a server for a host of another name. -/
theorem C91_host_false (v : Ver) :
    ∃ f g, (Client.connect [] (some b!"::1") true []).1 = some f ∧ f.header.get b!"host" = b!"::1" ∧
      decode v (writeFrame (some f)) = some (g, []) ∧ g.header.get b!"host" = b!"\\c\\c1" := by
  cases v
  · exact ⟨_, _, rfl, by decide +kernel, rfl, by decide +kernel⟩
  · exact ⟨_, _, rfl, by decide +kernel, rfl, by decide +kernel⟩
  · exact ⟨_, _, rfl, by decide +kernel, rfl, by decide +kernel⟩

/-- What a server that follows the specification says in CONNECTED may be something else for the client. -/
theorem C91_connected_false (v : Ver) :
    ∃ inp f g, decode v inp = some (f, []) ∧ f.command = b!"CONNECTED" ∧ f.header.get b!"session" = b!"\\new" ∧
      readFrame inp = .frame g [] ∧ g.header.get b!"session" = b!"\new" := by
  refine ⟨b!"CONNECTED\nversion:1.2\nsession:\\new\n\n\x00", ?_⟩
  cases v
  · exact ⟨_, _, rfl, by decide +kernel, by decide +kernel, rfl, by decide +kernel⟩
  · exact ⟨_, _, rfl, by decide +kernel, by decide +kernel, rfl, by decide +kernel⟩
  · exact ⟨_, _, rfl, by decide +kernel, by decide +kernel, rfl, by decide +kernel⟩

/-- In version 1.1 a header with CR is written with an escape that version does not have, and read without the CR at the end of a line. -/
theorem C91_cr_false :
    (∃ f, Spec.WellFormed f ∧ f.command = b!"SEND" ∧ decode .v11 (writeFrame (some f)) = none) ∧
    (∃ inp f g, decode .v11 inp = some (f, []) ∧ f.command = b!"MESSAGE" ∧ readFrame inp = .frame g [] ∧ f ≠ g) := by
  refine ⟨⟨⟨b!"SEND", [(b!"destination", b!"/queue/a"), (b!"x", [97, 13, 98])], []⟩, ⟨by decide, by decide, ?_⟩, rfl, by decide +kernel⟩, ?_⟩
  · show (0 : UInt8) ∉ _
    decide
  · exact ⟨b!"MESSAGE\nx:a\r\n\n\x00", _, _, rfl, by decide +kernel, rfl, by decide +kernel⟩

/-- In version 1.0 nothing is escaped; the library escapes. -/
theorem C91_v10_false :
    ∃ f g, Spec.WellFormed f ∧ f.command = b!"SEND" ∧ f.header.get b!"x" = b!"a:b" ∧ decode .v10 (writeFrame (some f)) = some (g, []) ∧ g.header.get b!"x" = b!"a\\cb" := by
  refine ⟨⟨b!"SEND", [(b!"destination", b!"/queue/a"), (b!"x", b!"a:b")], []⟩, _, ⟨by decide, by decide, ?_⟩, rfl, by decide +kernel, rfl, by decide +kernel⟩
  show (0 : UInt8) ∉ _
  decide

/-- What the specification calls a fatal protocol error the library reads as if nothing was wrong. -/
theorem C91_strict_false (v : Ver) (hv : v ≠ .v10) : ∃ inp f, decode v inp = none ∧ readFrame inp = .frame f [] ∧ f.header.get b!"x" = b!"a\\tb" := by
  refine ⟨b!"MESSAGE\nx:a\\tb\n\n\x00", ?_⟩
  cases v
  · exact absurd rfl hv
  · exact ⟨_, by decide +kernel, rfl, by decide +kernel⟩
  · exact ⟨_, by decide +kernel, rfl, by decide +kernel⟩

/-! Concrete cases. -/

example : decode .v12 (writeFrame (some sampleFrame) ++ b!"tail") = some (sampleFrame, b!"tail") :=
  C91_understood_partial _ _ sampleFrame_wf (by decide) (by decide)

/-- Lines that end with CR LF and lines that end with LF, all escapes, a body with NUL. -/
example : ∃ f, decode .v12 b!"MESSAGE\r\na\\c:\\r\\n\\\\\ncontent-length:3\r\n\r\nx\x00y\x00\n" = some (f, b!"\n") ∧ f.header = [(b!"a:", [13, 10, 92]), (b!"content-length", b!"3")] ∧
    readFrame b!"MESSAGE\r\na\\c:\\r\\n\\\\\ncontent-length:3\r\n\r\nx\x00y\x00\n" = .frame f b!"\n" :=
  ⟨_, rfl, by decide +kernel, C91_understands_partial _ _ _ rfl (by decide +kernel) (by decide +kernel) (by decide +kernel)⟩

/-- A CONNECT frame every server understands. -/
example : ∃ f, (Client.connect [.login b!"user" b!"secret"] (some b!"mq.example.com") true []).1 = some f ∧ ∀ v, decode v (writeFrame (some f)) = some (f, []) := by
  refine ⟨_, rfl, fun v => ?_⟩
  cases v <;> decide +kernel

/-- A stream with heart-beats. -/
example : Stream .v11 (writeAll [none, some sampleFrame2, none, none, some sampleFrame2]) [sampleFrame2, sampleFrame2] :=
  (C91_streams_partial .v11).1 [none, some sampleFrame2, none, none, some sampleFrame2] (by
    intro f hf
    have : f = sampleFrame2 := by simpa using hf
    subst this
    refine ⟨sampleFrame2_wf, fun e he s hs => ?_⟩
    simp only [sampleFrame2, List.mem_cons, List.not_mem_nil, or_false] at he
    rcases he with rfl | rfl <;> rcases hs with rfl | rfl <;> exact ⟨fun _ => by decide, fun h => absurd h (by decide)⟩)

end Stomp
