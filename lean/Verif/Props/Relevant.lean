import Verif.Proof.Cfg
import Verif.Props.Parts
/-!
# C66: a record depends only on the parts of the configuration that describe it

Every input, buffer and outcome is covered. `Agree ty c d` (Spec/Agree) lists the parts.
-/
namespace Perf
variable {β : Type} [ParseBuf β] {O α : Type}

/-- The same parser with another configuration. -/
def Parser.reconfigured (p : Parser β) (d : ParseConfig) : Parser β := { p with config := d }

/-- The same result (value with its `Cow` variants, error or panic), the same memory requests, and the buffer left in the same state. -/
structure TwinRun (o o' : Out β α) : Prop where
  res : o.res = o'.res
  log : o.log = o'.log
  left : o.st.data = o'.st.data

omit [ParseBuf β] in
theorem TwinOut.same {A : ParseConfig → ParseConfig → Prop} {o o' : Out β α} (h : TwinOut true A Eq Eq o o') : TwinRun o o' :=
  ⟨h.res.eq, h.log, by
    have h1 := h.st.buf
    have h2 := h.st.offset
    revert h1 h2
    cases o.st.data
    cases o'.st.data
    rintro rfl rfl
    rfl⟩

/-- **C66** A record whose header has been read. -/
theorem c66_with_header (v : Visitor Cow O) (h : Header) (p : Parser β) (d : ParseConfig) (hag : Agree h.type_.toNat p.config d) :
    TwinRun (P.recordWithHeader v h p) (P.recordWithHeader v h (p.reconfigured d)) :=
  (Twin.recordAgree BufTwin.refl v h p (p.reconfigured d) ⟨rfl, rfl, hag, nofun⟩).same

/-- **C66** A record with its header. -/
theorem c66_record (v : Visitor Cow O) (p : Parser β) (d : ParseConfig) (hi : SameInts p.config d)
    (hag : ∀ h, ((parseHeader : P β Header) p).res = .ok h → Agree h.type_.toNat p.config d) :
    TwinRun (P.record v p) (P.record v (p.reconfigured d)) := by
  have := hi.just
  obtain ⟨h1, h2, h3⟩ := Twin.header (A := Just p.config d) (R := Eq) BufTwin.refl p (p.reconfigured d) ⟨rfl, rfl, ⟨rfl, rfl⟩, nofun⟩
  have h1 := h1.eq
  unfold P.record
  rcases hr : ((parseHeader : P β Header) p).res with e | h <;> rw [hr] at h1
  · rw [P.bind_err (P.run_eq _ hr), P.bind_err (P.run_eq _ h1.symm)]
    have := TwinOut.same (o := (⟨.error e, ((parseHeader : P β Header) p).st, ((parseHeader : P β Header) p).log⟩ : Out β O)) (A := Just p.config d)
      (o' := ⟨.error e, ((parseHeader : P β Header) (p.reconfigured d)).st, ((parseHeader : P β Header) (p.reconfigured d)).log⟩) ⟨rfl, h2, h3⟩
    exact this
  · rw [P.bind_ok (P.run_eq _ hr), P.bind_ok (P.run_eq _ h1.symm)]
    have hag := hag h hr
    obtain ⟨g1, g2, g3⟩ := Twin.recordAgree BufTwin.refl v h _ _
      (⟨h3.buf, h3.offset, by rw [h3.config.1, h3.config.2]; exact hag, nofun⟩ : TwinP true (Agree h.type_.toNat) Eq _ _)
    exact TwinOut.same ⟨g1, by show _ ++ _ = _ ++ _; rw [h2, g2], g3⟩

/-- **C66** The metadata of a record (its trailer). -/
theorem c66_metadata (h : Header) (p : Parser β) (d : ParseConfig) (hag : Agree h.type_.toNat p.config d) :
    (P.metadataWithHeader h p).res.map (·.2) = (P.metadataWithHeader h (p.reconfigured d)).res.map (·.2) := by
  obtain ⟨h1, -, -⟩ := Twin.metadataAgree BufTwin.refl h p (p.reconfigured d) ⟨rfl, rfl, hag, nofun⟩
  generalize (P.metadataWithHeader h p).res = x at h1
  generalize (P.metadataWithHeader h (p.reconfigured d)).res = y at h1
  cases x <;> cases y
  · exact congrArg Except.error h1
  · exact h1.elim
  · exact h1.elim
  · exact congrArg Except.ok h1.2.1

/-- **C66** A record that is neither READ nor SAMPLE nor NAMESPACES, in a stream without trailers, depends only on how integers are read. -/
theorem c66_order_only (v : Visitor Cow O) (h : Header) (p : Parser β) (d : ParseConfig) (h8 : h.type_.toNat ≠ 8) (h9 : h.type_.toNat ≠ 9)
    (h16 : h.type_.toNat ≠ 16) (hc : p.config.sampleIdAll = false) (hd : d.sampleIdAll = false) (hi : SameInts p.config d) :
    TwinRun (P.recordWithHeader v h p) (P.recordWithHeader v h (p.reconfigured d)) :=
  c66_with_header v h p d ⟨hi, fun x => x.elim (absurd · h16) fun x => absurd x.1 h9, fun x => absurd x h8, fun x => absurd x h9, fun _ => ⟨by rw [hc, hd], fun x => by rw [hc] at x; cases x⟩⟩

/-- **C66** An MMAP record never has a trailer, so it depends only on how integers are read, whatever the configuration. -/
theorem c66_mmap (v : Visitor Cow O) (h : Header) (p : Parser β) (d : ParseConfig) (h1 : h.type_.toNat = 1)
    (hi : SameInts p.config d) :
    TwinRun (P.recordWithHeader v h p) (P.recordWithHeader v h (p.reconfigured d)) :=
  c66_with_header v h p d ⟨hi, fun x => x.elim (by omega) (by omega), fun x => by omega, fun x => by omega, fun x => absurd (Or.inl h1) x⟩

/-- **C66** The `misc` bits the configuration holds beforehand are never used: the record's header supplies them. -/
theorem c66_misc (v : Visitor Cow O) (p : Parser β) (m : U16) :
    TwinRun (P.record v p) (P.record v (p.reconfigured (p.config.withMisc m))) := by
  refine c66_record v p _ ⟨rfl, rfl, rfl⟩ fun h _ => ⟨⟨rfl, rfl, rfl⟩, fun _ => ⟨rfl, rfl⟩, fun _ => (ParseConfig.withMisc_readFormat ..).symm, fun _ => ?_, fun _ => ⟨?_, ?_⟩⟩
  · refine ⟨?_, ?_, ?_, fun _ => rfl, fun _ => rfl⟩
    · rw [ParseConfig.withMisc_sampleType]; exact fun _ _ => rfl
    · rw [ParseConfig.withMisc_readFormat]; exact fun _ => rfl
    · rw [ParseConfig.withMisc_branchHwIndex]; exact fun _ => rfl
  · rw [ParseConfig.withMisc_sampleIdAll]
  · rw [ParseConfig.withMisc_sampleType]; exact fun _ _ _ => rfl

/-- **C66** `Endian::is_native` does not matter to a record without lists: whether the parser is told that the data is in the host's
byte order or not, the outcome is the same. -/
theorem c66_native (v : Visitor Cow O) (h : Header) (p : Parser β) (b : Bool) (hl : ¬ HasLists h.type_.toNat p.config) :
    TwinRun (P.recordWithHeader v h p) (P.recordWithHeader v h (p.reconfigured { p.config with endian := { p.config.endian with isNative := b } })) :=
  c66_with_header v h p _ ⟨⟨rfl, rfl, rfl⟩, fun x => absurd x hl, fun _ => rfl, fun _ => ⟨fun _ _ => rfl, fun _ => rfl, fun _ => rfl, fun _ => rfl, fun _ => rfl⟩,
    fun _ => ⟨rfl, fun _ _ _ => rfl⟩⟩

/-- **C50** What `WEIGHT_STRUCT` (bit 24) does: nothing. Two configurations that differ in that bit alone give the same
outcome on every input, so the field the kernel writes for it is taken for the one after it. -/
theorem c50_weight_struct_ignored (v : Visitor Cow O) (p : Parser β) (d : ParseConfig)
    (hin : SameInts p.config d) (hn : SameNative p.config d)
    (hst : ∀ i, i ≠ 24 → p.config.sampleType.getLsbD i = d.sampleType.getLsbD i) (hrf : p.config.readFormat = d.readFormat)
    (hid : p.config.sampleIdAll = d.sampleIdAll) (hhw : p.config.branchHwIndex = d.branchHwIndex)
    (hu : p.config.regsUser = d.regsUser) (hi : p.config.regsIntr = d.regsIntr) :
    TwinRun (P.record v p) (P.record v (p.reconfigured d)) :=
  c66_record v p d hin fun _ _ => ⟨hin, fun _ => hn, fun _ => hrf,
    fun _ => ⟨fun i h => hst i (by omega), fun _ => hrf, fun _ => hhw, fun _ => hu, fun _ => hi⟩,
    fun _ => ⟨hid, fun _ i h => hst i (by rintro rfl; revert h; decide)⟩⟩

/-! ## The parts are needed

For every part listed in `Agree` there are two configurations that differ in it alone and give different outcomes. -/

/-- The configuration with these parts. -/
def partsCfg (rf st : U64) (all hw : Bool) (user intr : U64) : ParseConfig := { demoCfg with config := ⟨ConfigFlags.new rf st all hw 0#16, user, intr⟩ }
/-- How many bytes of the input are left after the record has been parsed, if it is accepted. -/
def acceptedLeft (data : List Byte) (cfg : ParseConfig) : Option Nat :=
  match P.parseRecord (Parser.new (⟨0, data⟩ : Slice) cfg) with
  | ⟨.ok _, st, _⟩ => some st.data.buf.data.length
  | _ => none
/-- A record of type `ty` with `n` bytes of body. -/
def zeroBody (ty : Byte) (n : Nat) : List Byte := [ty, 0, 0, 0, 0, 0, BitVec.ofNat 8 (n + 8), 0] ++ List.replicate n 0

/-- **C66** Each of bits 0 to 23 of `sample_type` matters to a SAMPLE (an empty one is accepted only without the bit); bit 24 does not. -/
theorem c66_sample_bits_matter : (∀ i < 24, acceptedLeft (zeroBody 9 0) (partsCfg 0 (1#64 <<< i) false false 0 0) = none) ∧
    acceptedLeft (zeroBody 9 0) (partsCfg 0 0 false false 0 0) = some 0 ∧
    acceptedLeft (zeroBody 9 0) (partsCfg 0 (1#64 <<< 24) false false 0 0) = some 0 := by decide +kernel

/-- **C66** The descriptions of the variable parts of a SAMPLE matter when the part is present. -/
theorem c66_sample_parts_matter :
    (acceptedLeft (zeroBody 9 8) (partsCfg 0 (1#64 <<< 4) false false 0 0) = some 0 ∧
      acceptedLeft (zeroBody 9 8) (partsCfg 1 (1#64 <<< 4) false false 0 0) = none) ∧
    (acceptedLeft (zeroBody 9 9) (partsCfg 0 (1#64 <<< 11) false false 0 0) = some 0 ∧
      acceptedLeft (zeroBody 9 9) (partsCfg 0 (1#64 <<< 11) false true 0 0) = none) ∧
    (acceptedLeft (zeroBody 9 16) (partsCfg 0 (1#64 <<< 12) false false 1 0) = some 0 ∧
      acceptedLeft (zeroBody 9 16) (partsCfg 0 (1#64 <<< 12) false false 3 0) = none) ∧
    (acceptedLeft (zeroBody 9 16) (partsCfg 0 (1#64 <<< 18) false false 0 1) = some 0 ∧
      acceptedLeft (zeroBody 9 16) (partsCfg 0 (1#64 <<< 18) false false 0 3) = none) := by decide +kernel

/-- **C66** READ depends on the read format, and trailers on `sample_id_all` and, with it, on the six bits; the byte order matters
to every record. -/
theorem c66_rest_matters :
    (acceptedLeft (zeroBody 8 16) (partsCfg 0 0 false false 0 0) = some 0 ∧
      acceptedLeft (zeroBody 8 16) (partsCfg 1 0 false false 0 0) = none) ∧
    (∀ i ∈ [1, 2, 6, 7, 9, 16], acceptedLeft (zeroBody 2 16) (partsCfg 0 (1#64 <<< i) false false 0 0) = some 0 ∧
      acceptedLeft (zeroBody 2 16) (partsCfg 0 (1#64 <<< i) true false 0 0) = none ∧
      acceptedLeft (zeroBody 2 16) (partsCfg 0 0 true false 0 0) = some 0) ∧
    acceptedLeft (zeroBody 2 16) { partsCfg 0 0 false false 0 0 with endian := .big .little } = none := by decide +kernel

/-- Whether the record is accepted when the input lies at address `a`: with `is_native` true, and with `is_native` false. -/
def acceptedAt (a : Nat) (data : List Byte) (cfg : ParseConfig) : Bool × Bool :=
  let run (b : Bool) : Bool := match P.parseRecord (Parser.new (⟨a, data⟩ : Slice) { cfg with endian := { cfg.endian with isNative := b } }) with
    | ⟨.ok _, _, _⟩ => true
    | _ => false
  (run true, run false)
/-- A record of type `ty` whose body is the bytes `b` followed by `n` zero bytes. -/
def bodyOf (ty : Byte) (b : List Byte) (n : Nat) : List Byte := [ty, 0, 0, 0, 0, 0, BitVec.ofNat 8 (b.length + n + 8), 0] ++ b ++ List.replicate n 0

/-- **C66** Whether the data is in the host's byte order matters to every kind of list: NAMESPACES, and in a SAMPLE callchain, branches,
registers (both kinds) and the values of a group. (The inputs lie at an address that is not a multiple of 8; by B2 a list is then lost.) -/
theorem c66_native_matters :
    acceptedAt 4 (bodyOf 16 [0, 0, 0, 0, 0, 0, 0, 0, 1] 23) (partsCfg 0 0 false false 0 0) = (false, true) ∧
    acceptedAt 4 (bodyOf 9 [1] 15) (partsCfg 0 (1#64 <<< 5) false false 0 0) = (false, true) ∧
    acceptedAt 4 (bodyOf 9 [1] 31) (partsCfg 0 (1#64 <<< 11) false false 0 0) = (false, true) ∧
    acceptedAt 4 (bodyOf 9 [1] 15) (partsCfg 0 (1#64 <<< 12) false false 1 0) = (false, true) ∧
    acceptedAt 4 (bodyOf 9 [1] 15) (partsCfg 0 (1#64 <<< 18) false false 0 1) = (false, true) ∧
    acceptedAt 4 (bodyOf 9 [1] 15) (partsCfg 8 (1#64 <<< 4) false false 0 0) = (false, true) := by decide +kernel

/-- A LOST record with configurations that share only the byte order. -/
example : TwinRun (P.parseRecord (Parser.new (⟨0, demoLost⟩ : Slice) (partsCfg 0 0 false false 0 0)))
    (P.parseRecord (Parser.new (⟨0, demoLost⟩ : Slice) (partsCfg 15 0xffffff false true 7 9))) :=
  c66_record _ (Parser.new (⟨0, demoLost⟩ : Slice) (partsCfg 0 0 false false 0 0)) (partsCfg 15 0xffffff false true 7 9) ⟨rfl, rfl, rfl⟩ fun h hh => by
    have : h = ⟨2, 0, 24⟩ := by
      have h2 : ((parseHeader : P Slice Header) (Parser.new (⟨0, demoLost⟩ : Slice) (partsCfg 0 0 false false 0 0))).res = .ok ⟨2, 0, 24⟩ := rfl
      rw [h2] at hh
      exact (Except.ok.inj hh).symm
    subst this
    exact ⟨⟨rfl, rfl, rfl⟩, fun _ => ⟨rfl, rfl⟩, nofun, nofun, fun _ => ⟨by decide +kernel, fun x => absurd x (by decide +kernel)⟩⟩

end Perf
