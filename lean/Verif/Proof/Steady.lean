import Verif.Proof.FlowProg
import Verif.Props.Chunking
/-!
# Programs on data in a foreign byte order

Nothing is reinterpreted in place then, so that lists of words depend on the bytes alone; what is left are the two halves of a `TextPoke` (B7).
-/
namespace Perf
variable {α γ T : Type}

/-- No eight bytes of the input, taken as a header, announce a TEXT_POKE record. -/
def Pokeless (f : Flat) : Prop :=
  ∀ i, i + 8 ≤ f.s.bytes.length → (f.cfg.endian.conv32 ((f.s.bytes.drop i).take 4)).toNat ≠ 20

/-- A foreign byte order, and no TEXT_POKE. -/
def Placid (f : Flat) : Prop := Foreign f ∧ Pokeless f

theorem Placid.adv {f : Flat} (h : Placid f) (n : Nat) : Placid (f.adv n) := by
  refine ⟨h.1, fun i hi => ?_⟩
  have hl : (f.adv n).s.bytes = f.s.bytes.drop n := rfl
  rw [hl, List.length_drop] at hi
  rw [hl, List.drop_drop]
  exact h.2 (n + i) (by omega)

theorem Placid.region {f : Flat} (h : Placid f) (n : Nat) : Placid (f.region n) := by
  refine ⟨h.1, fun i hi => ?_⟩
  have hl : (f.region n).s.bytes = f.s.bytes.take n := rfl
  rw [hl, List.length_take] at hi
  rw [hl, List.drop_take, List.take_take, Nat.min_eq_left (by omega)]
  exact h.2 i (by omega)

theorem Placid.withMisc {f : Flat} (h : Placid f) (m : U16) : Placid (f.withMisc m) := by
  have he : (f.withMisc m).cfg.endian = f.cfg.endian := by
    show (f.cfg.withMisc m).endian = _
    unfold ParseConfig.withMisc; rfl
  refine ⟨?_, fun i hi => ?_⟩
  · unfold Foreign; rw [he]; exact h.1
  · rw [he]; exact h.2 i hi

theorem Placid.family : AlFamily fun _ => Placid where
  adv _ _ _ h := h.adv _
  slice f h hn := by have := h.1; unfold Foreign at this; rw [this] at hn; cases hn

/-- On placid input `s` is specified, leaves placid input, and its values are as `Q` says. -/
def Goes (Q : α → Prop) (s : Flow α) : Prop := ∀ f, Placid f → ∃ r f', s f = some (r, f') ∧ Placid f' ∧ ∀ a, r = .ok a → Q a

/-- The same without a word on the values. -/
abbrev GoesOn (s : Flow α) : Prop := Goes (fun _ => True) s

theorem Goes.bind {Q : α → Prop} {R : γ → Prop} {s : Flow α} {k : α → Flow γ} (h : Goes Q s) (hk : ∀ a, Q a → Goes R (k a)) :
    Goes R (s.bind k) := by
  intro f hf
  obtain ⟨r, f', hs, hf', hq⟩ := h f hf
  unfold Flow.bind
  rw [hs]
  cases r with
  | error e => exact ⟨.error e, f', rfl, hf', nofun⟩
  | ok a => exact hk a (hq a rfl) f' hf'

theorem Goes.seq {s : Flow α} {k : α → Flow γ} (h : GoesOn s) (hk : ∀ a, GoesOn (k a)) : GoesOn (s >>= k) := Goes.bind h fun a _ => hk a
theorem Goes.pure (a : α) : GoesOn (Flow.pure a) := fun f hf => ⟨_, f, rfl, hf, fun _ _ => trivial⟩
theorem Goes.fail (e : ParseError) : GoesOn (Flow.fail e : Flow α) := fun f hf => ⟨_, f, rfl, hf, fun _ _ => trivial⟩
theorem Goes.config : GoesOn Flow.config := fun f hf => ⟨_, f, rfl, hf, fun _ _ => trivial⟩
theorem Goes.ite {Q : α → Prop} {c : Prop} [Decidable c] {s s' : Flow α} (h : Goes Q s) (h' : Goes Q s') : Goes Q (if c then s else s') := by
  split
  · exact h
  · exact h'

theorem Goes.drain {s : Spec α} (h : Tri Placid s Placid) : GoesOn (Flow.drain s) := by
  intro f hf
  obtain ⟨h1, h2⟩ := h f hf
  unfold Flow.drain
  rcases hs : s f with e | ⟨a, f'⟩
  · cases e with
    | stuck => exact absurd hs h1
    | err e => exact ⟨_, _, rfl, hf.adv _, fun _ _ => trivial⟩
  · exact ⟨_, _, rfl, h2 a f' hs, fun _ _ => trivial⟩

theorem Placid.bytes (n : Nat) : Tri Placid (Spec.bytes n) Placid := Tri.bytes n fun _ h => h.adv n
theorem Placid.rest : Tri Placid Spec.rest Placid := by
  intro f hf
  unfold Spec.rest
  split
  · exact ⟨nofun, nofun⟩
  · split
    · exact ⟨nofun, fun a f' h => by cases h; exact hf.adv _⟩
    · exact ⟨nofun, nofun⟩
theorem Placid.restTrimNul : Tri Placid Spec.restTrimNul Placid := Tri.bind Placid.rest fun _ => Tri.pure _
theorem Placid.take (n : Nat) : Tri Placid (Spec.take n) Placid := by
  intro f hf
  unfold Spec.take
  split
  · exact ⟨nofun, fun a f' h => by cases h; exact hf.adv _⟩
  · exact ⟨nofun, nofun⟩

theorem Goes.array (n : Nat) : GoesOn (ParserM.array n : Flow (List Byte)) := Goes.drain (Placid.bytes n)
theorem Goes.bytes (n : Nat) : GoesOn (ParserM.bytes n : Flow (List Byte)) := Goes.drain (Placid.bytes n)
theorem Goes.rest : GoesOn (ParserM.rest : Flow (List Byte)) := Goes.drain Placid.rest
theorem Goes.restTrimNul : GoesOn (ParserM.restTrimNul : Flow (List Byte)) := Goes.drain Placid.restTrimNul
theorem Goes.u8 : GoesOn (parseU8 : Flow U8) := Goes.seq (Goes.array 1) fun _ => Goes.pure _
theorem Goes.u16 : GoesOn (parseU16 : Flow U16) := Goes.seq (Goes.array 2) fun _ => Goes.seq Goes.config fun _ => Goes.pure _
theorem Goes.u32 : GoesOn (parseU32 : Flow U32) := Goes.seq (Goes.array 4) fun _ => Goes.seq Goes.config fun _ => Goes.pure _
theorem Goes.u64 : GoesOn (parseU64 : Flow U64) := Goes.seq (Goes.array 8) fun _ => Goes.seq Goes.config fun _ => Goes.pure _
theorem Goes.parseIf {s : Flow α} (c : Bool) (h : GoesOn s) : GoesOn (Perf.parseIf c s) := by
  cases c with
  | true => exact Goes.seq h fun _ => Goes.pure _
  | false => exact Goes.pure _

/-- What a parser that goes on says without its states. -/
theorem Goes.erase {s : Flow α} (h : GoesOn s) : Tri Placid (Flow.erase s) Placid := by
  intro f hf
  obtain ⟨r, f', hs, hf', _⟩ := h f hf
  unfold Flow.erase
  rw [hs]
  cases r with
  | error e => exact ⟨nofun, nofun⟩
  | ok a => exact ⟨nofun, fun b g hb => by cases hb; exact hf'⟩

theorem Goes.sliceF (e : Elem T) {item : Spec T} (h : Tri Placid item Placid) (n : Nat) : GoesOn (Flow.slice e item n) := by
  intro f hf
  unfold Flow.slice
  split
  · exact ⟨_, f, rfl, hf, fun _ _ => trivial⟩
  · exact Goes.drain (Placid.family.sliceT e h n) f hf

theorem Goes.slice (e : Elem T) {item : Flow T} (h : GoesOn item) (n : Nat) : GoesOn (ParserM.slice e item n : Flow (List T)) :=
  Goes.sliceF e h.erase n

theorem Goes.padded {s : Flow α} (h : GoesOn s) : GoesOn (ParserM.padded 8 s : Flow α) := by
  intro f hf
  obtain ⟨r, f', hs, hf', _⟩ := h f hf
  show ∃ r f', Flow.padded 8 s f = some (r, f') ∧ _
  unfold Flow.padded
  rw [if_neg (by omega), hs]
  cases r with
  | error e => exact ⟨_, f', rfl, hf', fun _ _ => trivial⟩
  | ok a =>
    dsimp only
    split
    · exact ⟨_, f', rfl, hf', fun _ _ => trivial⟩
    · exact Goes.bind (Goes.drain (Placid.take _)) (fun _ _ => Goes.pure a) f' hf'

/-- Walk through a parser. -/
macro "goes" : tactic => `(tactic| repeat first
  | exact Goes.u64
  | exact Goes.u32
  | exact Goes.u16
  | exact Goes.u8
  | exact Goes.config
  | exact Goes.array _
  | exact Goes.bytes _
  | exact Goes.rest
  | exact Goes.restTrimNul
  | exact Goes.fail _
  | exact Goes.pure _
  | with_reducible refine Goes.slice _ ?_ _
  | with_reducible refine Goes.parseIf _ ?_
  | refine Goes.ite ?_ ?_
  | refine Goes.seq ?_ fun _ => ?_)

theorem Goes.namespaceEntry : GoesOn (parseNamespaceEntry : Flow NamespaceEntry) := by unfold parseNamespaceEntry; goes
theorem Goes.branchEntry : GoesOn (parseBranchEntry : Flow BranchEntry) := by unfold parseBranchEntry; goes
theorem Goes.cpu : GoesOn (parseCpu : Flow U32) := by unfold parseCpu; goes
theorem Goes.mmapDetail : GoesOn (parseMmapDetail : Flow MmapDetail) := by unfold parseMmapDetail; goes
theorem Goes.sampleId : GoesOn (parseSampleId : Flow SampleId) := by unfold parseSampleId parseCpu; goes
theorem Goes.readValue : GoesOn (parseReadValue : Flow ReadValue) := by unfold parseReadValue; goes
theorem Goes.readGroup : GoesOn (parseReadGroup : Flow (ReadGroup List)) := by unfold parseReadGroup; goes
theorem Goes.values : GoesOn (parseValues : Flow (ReadGroup List)) := by
  unfold parseValues
  refine Goes.seq Goes.config fun _ => Goes.ite Goes.readGroup ?_
  exact Goes.seq Goes.readValue fun _ => Goes.pure _
theorem Goes.namespaces : GoesOn (parseNamespaces : Flow (Namespaces List)) := by
  unfold parseNamespaces
  refine Goes.seq Goes.u32 fun _ => Goes.seq Goes.u32 fun _ => Goes.seq Goes.u64 fun _ => ?_
  exact Goes.seq (Goes.slice _ Goes.namespaceEntry _) fun _ => Goes.pure _
theorem Goes.registers (mask : U64) : GoesOn (parseRegisters mask : Flow (Registers List)) := by unfold parseRegisters; goes
theorem Goes.lbr (hw : Bool) : GoesOn (parseLbr hw : Flow (List BranchEntry × Option U64)) := by
  unfold parseLbr
  refine Goes.seq Goes.u64 fun _ => Goes.seq (Goes.parseIf _ Goes.u64) fun _ => ?_
  exact Goes.seq (Goes.slice _ Goes.branchEntry _) fun _ => Goes.pure _
theorem Goes.callchain : GoesOn (parseCallchain : Flow (List U64)) := by unfold parseCallchain; goes
theorem Goes.stackUser : GoesOn (parseStackUser : Flow (List Byte)) := by unfold parseStackUser; goes
theorem Goes.auxData : GoesOn (parseAuxData : Flow (List Byte)) := by unfold parseAuxData; goes
theorem Goes.raw : GoesOn (ParserM.padded 8 parseRawInner : Flow (List Byte)) := Goes.padded (by unfold parseRawInner; goes)
theorem Goes.registersUser : GoesOn (parseRegistersUser : Flow (Registers List)) := Goes.seq Goes.config fun _ => Goes.registers _
theorem Goes.registersIntr : GoesOn (parseRegistersIntr : Flow (Registers List)) := Goes.seq Goes.config fun _ => Goes.registers _

theorem Goes.sample : GoesOn (parseSample : Flow (Sample List)) := by
  unfold parseSample
  refine Goes.seq Goes.config fun _ => ?_
  refine Goes.seq (Goes.parseIf _ Goes.u64) fun _ => Goes.seq (Goes.parseIf _ Goes.u64) fun _ => ?_
  refine Goes.seq (Goes.parseIf _ Goes.u32) fun _ => Goes.seq (Goes.parseIf _ Goes.u32) fun _ => ?_
  refine Goes.seq (Goes.parseIf _ Goes.u64) fun _ => Goes.seq (Goes.parseIf _ Goes.u64) fun _ => ?_
  refine Goes.seq (Goes.parseIf _ Goes.u64) fun _ => Goes.seq (Goes.parseIf _ Goes.u64) fun _ => ?_
  refine Goes.seq (Goes.parseIf _ Goes.cpu) fun _ => Goes.seq (Goes.parseIf _ Goes.u64) fun _ => ?_
  refine Goes.seq (Goes.parseIf _ Goes.values) fun _ => Goes.seq (Goes.parseIf _ Goes.callchain) fun _ => ?_
  refine Goes.seq (Goes.parseIf _ Goes.raw) fun _ => Goes.seq (Goes.parseIf _ (Goes.lbr _)) fun _ => ?_
  refine Goes.seq (Goes.parseIf _ Goes.registersUser) fun _ => Goes.seq (Goes.parseIf _ Goes.stackUser) fun _ => ?_
  refine Goes.seq (Goes.parseIf _ Goes.u64) fun _ => Goes.seq (Goes.parseIf _ Goes.u64) fun _ => ?_
  refine Goes.seq (Goes.parseIf _ Goes.u64) fun _ => Goes.seq (Goes.parseIf _ Goes.registersIntr) fun _ => ?_
  refine Goes.seq (Goes.parseIf _ Goes.u64) fun _ => Goes.seq (Goes.parseIf _ Goes.u64) fun _ => ?_
  refine Goes.seq (Goes.parseIf _ Goes.u64) fun _ => Goes.seq (Goes.parseIf _ Goes.u64) fun _ => ?_
  exact Goes.seq (Goes.parseIf _ Goes.auxData) fun _ => Goes.pure _

theorem Goes.body {ty : U32} (h : ty.toNat ≠ 20) : GoesOn (parseBody ty : Flow (Record List)) := by
  unfold parseBody
  split
  all_goals first
    | contradiction
    | skip
  all_goals refine Goes.seq ?_ fun _ => Goes.pure _
  all_goals repeat first
    | exact Goes.sample
    | exact Goes.namespaces
    | exact Goes.readValue
    | exact Goes.u64
    | exact Goes.u32
    | exact Goes.u16
    | exact Goes.u8
    | exact Goes.config
    | exact Goes.array _
    | exact Goes.rest
    | exact Goes.restTrimNul
    | exact Goes.fail _
    | exact Goes.pure _
    | refine Goes.ite ?_ ?_
    | refine Goes.seq ?_ fun _ => ?_

/-! ## Whole records -/

/-- The body of a record that is no TEXT_POKE is specified. -/
theorem Placid.body {ty : U32} (h : ty.toNat ≠ 20) {f : Flat} (hf : Placid f) : (parseBody ty : Spec (Record List)) f ≠ .error .stuck := by
  by_cases h9 : ty.toNat = 9
  · have hs := Placid.family.sample hf fun _ _ _ _ h => h
    unfold parseBody
    rw [h9]
    exact Spec.tag_run (fun r => (Record.sample r : Record List)) hs
  · by_cases h16 : ty.toNat = 16
    · have hs := (Placid.family.namespaces f hf).1
      unfold parseBody
      rw [h16]
      exact Spec.tag_run (fun r => (Record.namespaces r : Record List)) hs
    · exact NoStuck.body h9 h16 h f

theorem Goes.framed {Q : α → Prop} {s : Spec α} {h : Header}
    (hs : ∀ f, Placid f → s f ≠ .error .stuck ∧ ∀ a f', s f = .ok (a, f') → Placid f' ∧ Q a) : Goes Q (Flow.framed h s) := by
  intro f hf
  obtain ⟨h1, h2⟩ := hs f hf
  unfold Flow.framed
  rcases hr : s f with e | ⟨a, f'⟩
  · cases e with
    | stuck => exact absurd hr h1
    | err e =>
      refine ⟨_, _, rfl, ?_, nofun⟩
      split
      · exact hf
      · exact hf.adv _
  · exact ⟨_, _, rfl, (h2 a f' hr).1, fun b hb => by cases hb; exact (h2 a f' hr).2⟩

/-- The metadata of a record, the rest of its body, and the rest of the input. -/
theorem Placid.metadata (h : Header) {f : Flat} (hf : Placid f) : Spec.metadataWithHeader h f ≠ .error .stuck ∧
    ∀ a f', Spec.metadataWithHeader h f = .ok (a, f') → Placid f' ∧ Placid a.1 ∧ a.2.ty = h.type_ := by
  have e1 : ∀ {x : ParseError}, Spec.metadataWithHeader h f = .error (.err x) → Spec.metadataWithHeader h f ≠ .error .stuck ∧
      ∀ a f', Spec.metadataWithHeader h f = .ok (a, f') → Placid f' ∧ Placid a.1 ∧ a.2.ty = h.type_ := by
    intro x hx
    rw [hx]
    exact ⟨fun he => (by injection he with he; cases he), fun _ _ he => by injection he⟩
  have e2 : ∀ {n m : Nat} {sid : SampleId}, Spec.metadataWithHeader h f = .ok ((f.region n, Metadata.new h sid), f.adv m) →
      Spec.metadataWithHeader h f ≠ .error .stuck ∧
      ∀ a f', Spec.metadataWithHeader h f = .ok (a, f') → Placid f' ∧ Placid a.1 ∧ a.2.ty = h.type_ := by
    intro n m sid hx
    rw [hx]
    refine ⟨fun he => (by injection he), fun a f' he => ?_⟩
    injection he with he
    injection he with h1 h2
    subst h1 h2
    exact ⟨hf.adv _, hf.region _, rfl⟩
  rcases Spec.metadata_cases h f with ⟨a1, a2⟩ | ⟨a1, a2, a3⟩ | ⟨a1, a2, a3, a4⟩ | ⟨a1, a2, a3, a4, a5⟩ | ⟨a1, a2, a3, a4, sid, i, a5, a6⟩
  · exact e1 a2
  · exact e1 a3
  · exact e2 a4
  · exact e1 a5
  · exact e2 a6

theorem Goes.metadataWith (h : Header) : Goes (fun a : Flat × Metadata => Placid a.1) (Flow.framed h (Spec.metadataWithHeader h)) :=
  Goes.framed fun _ hf => ⟨(Placid.metadata h hf).1, fun a f' ha => ⟨((Placid.metadata h hf).2 a f' ha).1, ((Placid.metadata h hf).2 a f' ha).2.1⟩⟩

theorem Goes.recordWith {h : Header} (h20 : h.type_.toNat ≠ 20) : GoesOn (Flow.framed h (Spec.recordWithHeader h)) := by
  refine Goes.framed fun f hf => ?_
  have hm := Placid.metadata h hf
  unfold Spec.recordWithHeader
  generalize Spec.metadataWithHeader h f = m at hm
  obtain ⟨m1, m2⟩ := hm
  rcases m with e | ⟨⟨r, md⟩, f'⟩
  · refine ⟨fun he => m1 ?_, fun _ _ he => ?_⟩
    · injection he with he; rw [he]
    · injection he
  · obtain ⟨c1, c2, c3⟩ := m2 _ _ rfl
    have hb := Placid.body (ty := md.ty) (by rw [c3]; exact h20) (Placid.withMisc c2 md.misc)
    dsimp only
    generalize (parseBody md.ty : Spec (Record List)) (Flat.withMisc r md.misc) = q at hb
    rcases q with e | ⟨x, g⟩
    · refine ⟨fun he => hb ?_, fun _ _ he => ?_⟩
      · injection he with he; rw [he]
      · injection he
    · refine ⟨fun he => (by injection he), fun a f'' he => ?_⟩
      injection he with he
      injection he with h1 h2
      subst h2
      exact ⟨c1, trivial⟩

theorem Spec.bind_inv {m : Spec α} {k : α → Spec γ} {f g : Flat} {c : γ} (h : (m >>= k) f = .ok (c, g)) :
    ∃ a f', m f = .ok (a, f') ∧ k a f' = .ok (c, g) := by
  rcases hm : m f with e | ⟨a, f'⟩
  · rw [Spec.bind_err hm] at h; cases h
  · rw [Spec.bind_ok hm] at h; exact ⟨a, f', rfl, h⟩

theorem Spec.bytes_ok {n : Nat} {f f' : Flat} {a : List Byte} (h : Spec.bytes n f = .ok (a, f')) :
    n ≤ f.s.bytes.length ∧ a = f.s.bytes.take n ∧ f' = f.adv n := by
  unfold Spec.bytes Spec.take at h
  split at h
  · cases h
  · split at h
    · cases h; exact ⟨by assumption, rfl, rfl⟩
    · cases h

/-- The next header does not announce a TEXT_POKE. -/
theorem Goes.header : Goes (fun h : Header => h.type_.toNat ≠ 20) (Flow.drain parseHeader) := by
  intro f hf
  obtain ⟨r, f', hs, hf', _⟩ := Goes.drain (s := (parseHeader : Spec Header)) (by
    unfold parseHeader
    have t : ∀ {A : Type} {n : Nat} {k : List Byte → ParseConfig → A},
        Tri Placid ((Spec.bytes n) >>= fun x => (Spec.config >>= fun c => Pure.pure (k x c) : Spec A)) Placid :=
      Tri.bind (Placid.bytes _) fun _ => Tri.bind Tri.config fun _ => Tri.pure _
    exact Tri.bind t fun _ => Tri.bind t fun _ => Tri.bind t fun _ => Tri.pure _) f hf
  refine ⟨r, f', hs, hf', fun h hr => ?_⟩
  subst hr
  unfold Flow.drain at hs
  rcases hp : (parseHeader : Spec Header) f with e | ⟨h', g⟩
  · rw [hp] at hs
    cases e <;> cases hs
  · rw [hp] at hs
    cases hs
    obtain ⟨ty, f1, h1, hp⟩ := Spec.bind_inv hp
    obtain ⟨mi, f2, h2, hp⟩ := Spec.bind_inv hp
    obtain ⟨si, f3, h3, hp⟩ := Spec.bind_inv hp
    obtain ⟨x1, g1, h1, e1⟩ := Spec.bind_inv h1
    obtain ⟨x2, g2, h2, e2⟩ := Spec.bind_inv h2
    obtain ⟨x3, g3, h3, e3⟩ := Spec.bind_inv h3
    obtain ⟨l1, rfl, rfl⟩ := Spec.bytes_ok h1
    cases e1
    obtain ⟨l2, rfl, rfl⟩ := Spec.bytes_ok h2
    cases e2
    obtain ⟨l3, rfl, rfl⟩ := Spec.bytes_ok h3
    cases e3
    cases hp
    rw [Flat.adv_bytes, List.length_drop] at l2
    rw [Flat.adv_adv, Flat.adv_bytes, List.length_drop] at l3
    exact hf.2 0 (by omega)

/-! ## Whole programs -/

theorem Goes.direct : GoesOn Flow.direct := by
  intro f hf
  unfold Flow.direct
  rw [if_neg (by have := hf.1; unfold Foreign at this; simp [this])]
  exact ⟨_, f, rfl, hf, fun _ _ => trivial⟩

theorem Goes.attr : GoesOn Flow.attr := by
  refine Goes.bind Goes.u32 fun t _ => Goes.bind Goes.u32 fun n _ => Goes.ite (Goes.fail _) fun f hf => ?_
  have h := NoStuck.attrBody t n (f.region (n.toNat - 4))
  by_cases hl : n.toNat - 4 ≤ f.s.bytes.length
  · simp only [if_pos hl]
    rcases hb : (Perf.attrBody t n : Spec Attr) (f.region (n.toNat - 4)) with e | ⟨a, g⟩
    · cases e with
      | stuck => exact absurd hb h
      | err e => exact ⟨_, _, rfl, hf.adv _, fun _ _ => trivial⟩
    · exact ⟨_, _, rfl, hf.adv _, fun _ _ => trivial⟩
  · simp only [if_neg hl]
    exact ⟨_, _, rfl, hf.adv _, fun _ _ => trivial⟩

theorem Goes.attempt {s : Flow α} (h : GoesOn s) : GoesOn (Flow.attempt s) := by
  intro f hf
  obtain ⟨r, f', hs, hf', _⟩ := h f hf
  unfold Flow.attempt
  rw [hs]
  exact ⟨_, f', rfl, hf', fun _ _ => trivial⟩

theorem Goes.attemptOn {s : Flow α} (h : GoesOn s) {r : Flat} (hr : Placid r) : GoesOn (Flow.attemptOn r s) := by
  intro f hf
  obtain ⟨x, r', hs, _, _⟩ := h r hr
  unfold Flow.attemptOn
  rw [hs]
  exact ⟨_, f, rfl, hf, fun _ _ => trivial⟩

theorem Goes.repeated {s : Flow α} (h : GoesOn s) : ∀ n, GoesOn (Flow.repeated s n)
  | 0 => Goes.pure _
  | n + 1 => Goes.bind h fun _ _ => Goes.bind (Goes.repeated h n) fun _ _ => Goes.pure _

theorem Goes.metadata : Goes (fun a : Flat × Metadata => Placid a.1) Flow.metadata :=
  Goes.bind Goes.header fun h _ => Goes.metadataWith h

theorem Goes.record : GoesOn Flow.record := Goes.bind Goes.header fun _ h => Goes.recordWith h

theorem Goes.call (c : Call T) (h : c.Steady) : GoesOn c.flow := by
  cases c with
  | array n => exact Goes.array n
  | direct n => exact Goes.direct
  | entries n => exact Goes.slice _ Goes.namespaceEntry n
  | branches n => exact Goes.slice _ Goes.branchEntry n
  | header => unfold Call.flow parseHeader; goes
  | attr => exact Goes.attr
  | entry => exact Goes.namespaceEntry
  | branch => exact Goes.branchEntry
  | mmapDetail => exact Goes.mmapDetail
  | sampleId => exact Goes.sampleId
  | readValue => exact Goes.readValue
  | readGroup => exact Goes.readGroup
  | body ty => exact Goes.body h
  | visit => exact Goes.record
  | visitWith hd => exact Goes.recordWith h

theorem Placid.u8 : Tri Placid (parseU8 : Spec U8) Placid := Tri.bind (Placid.bytes 1) fun _ => Tri.pure _
theorem Placid.u16 : Tri Placid (parseU16 : Spec U16) Placid := Tri.bind (Placid.bytes 2) fun _ => Tri.bind Tri.config fun _ => Tri.pure _
theorem Placid.u32 : Tri Placid (parseU32 : Spec U32) Placid := Tri.bind (Placid.bytes 4) fun _ => Tri.bind Tri.config fun _ => Tri.pure _
theorem Placid.u64 : Tri Placid (parseU64 : Spec U64) Placid := Tri.bind (Placid.bytes 8) fun _ => Tri.bind Tri.config fun _ => Tri.pure _

/-- On data in a foreign byte order without TEXT_POKE records, programs that ask for none are a function of the bytes. -/
theorem Goes.prog (prog : Prog α) : prog.Steady → GoesOn prog.flow := by
  induction prog with
  | done a => exact fun _ => Goes.pure a
  | fail e => exact fun _ => Goes.fail e
  | config k ih => exact fun h => Goes.bind Goes.config fun x _ => ih x (h x)
  | u8 k ih => exact fun h => Goes.bind (Goes.drain Placid.u8) fun x _ => ih x (h x)
  | u16 k ih => exact fun h => Goes.bind (Goes.drain Placid.u16) fun x _ => ih x (h x)
  | u32 k ih => exact fun h => Goes.bind (Goes.drain Placid.u32) fun x _ => ih x (h x)
  | u64 k ih => exact fun h => Goes.bind (Goes.drain Placid.u64) fun x _ => ih x (h x)
  | bytes n k ih => exact fun h => Goes.bind (Goes.drain (Placid.bytes n)) fun x _ => ih x (h x)
  | rest k ih => exact fun h => Goes.bind (Goes.drain Placid.rest) fun x _ => ih x (h x)
  | restTrimNul k ih => exact fun h => Goes.bind (Goes.drain Placid.restTrimNul) fun x _ => ih x (h x)
  | words n k ih => exact fun h => Goes.bind (Goes.sliceF _ Placid.u64 n) fun x _ => ih x (h x)
  | repeated size item n k ihi ih => exact fun h => Goes.bind (Goes.repeated (ihi h.1) n) fun x _ => ih x (h.2 x)
  | metadata body k ihb ih =>
    exact fun h => Goes.bind Goes.metadata fun x hx => Goes.bind (Goes.attemptOn (ihb h.1) hx) fun r _ => ih x.2 r (h.2 x.2 r)
  | metadataWith hd body k ihb ih =>
    exact fun h => Goes.bind (Goes.metadataWith hd) fun x hx => Goes.bind (Goes.attemptOn (ihb h.1) hx) fun r _ => ih x.2 r (h.2 x.2 r)
  | call c k ih => exact fun h => Goes.bind (Goes.call c h.1) fun x _ => ih x (h.2 x)
  | record k ih => exact fun h => Goes.bind Goes.record fun x _ => ih x.1 (h x.1)
  | attempt m k ihm ih => exact fun h => Goes.bind (Goes.attempt (ihm h.1)) fun r _ => ih r (h.2 r)

end Perf
