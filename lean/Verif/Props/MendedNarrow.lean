import Verif.Proof.SuitsTop
import Verif.Props.Narrow
import Verif.Props.Mended

/-! C93: with the counts checked, records mean the same on every machine.

C83 fails because `as usize` drops the high half of a count on 32-bit machines (B17) and because lists are lost where the alignment is not
that of `u64` (B2), which differs. `MendOn.record w` is `Parser::parse_record` with the corrections of Model/Mended.lean, compiled for the
machine `w`, and with an error for counts that do not fit. It is not the code of /repo.
-/
namespace Perf
variable {w w' : Platform} {β γ : Type} [ParseBuf β] [Lawful β] [ParseBuf γ] [Lawful γ] {O : Type} {p : Parser β} {q : Parser γ} {f g : Flat}
  {o : Order} {tl : List Byte}

/-- Both give an error, or the visitor is given records with the same contents (borrowed or not) and the same metadata. -/
def AlikeOutcome (v : Visitor Cow O) (x y : Except Fault O) : Prop :=
  (∃ e e', x = .error (.err e) ∧ y = .error (.err e') ∧ (e.kind = e'.kind ∨ e.kind ∈ [.eof, .invalidRecord] ∧ e'.kind ∈ [.eof, .invalidRecord])) ∨
  ∃ a b md, Record.view a = Record.view b ∧ x = v.apply a md ∧ y = v.apply b md

/-- **C93** On any machine of 16 to 64 bits, with any alignment of `u64`, from any buffer: the outcome is that of the 64-bit machine, but an
announced length that is too large for the machine is called invalid where it is more than the record has. -/
theorem c93_record (hw : 16 ≤ w.bits ∧ w.bits ≤ 64) (hp : RepP p f) (v : Visitor Cow O) :
    match Ideal.record f.input with
    | .ok (rec, md) => ∃ a b : Record Cow, a.view = rec ∧ b.view = rec ∧ (MendOn.record w v p).res = v.apply a md ∧
        (Mend.record v p).res = v.apply b md
    | .error e => (Mend.record v p).res = .error (.err e) ∧ ∃ e', (MendOn.record w v p).res = .error (.err e') ∧
        (e' = e ∨ e.kind = .eof ∧ e'.kind = .invalidRecord) := by
  have h1 := MendOn.record_run hw hp v
  have h2 := (Mend.record_run hp v).1
  rcases hr : Ideal.record f.input with e | ⟨rec, md⟩ <;> rw [hr] at h1 h2
  · exact ⟨h2, h1⟩
  · obtain ⟨a, h3, h4⟩ := h1
    obtain ⟨b, h5, h6⟩ := h2
    exact ⟨a, b, h3, h5, h4, h6⟩

/-- **C93** C83 without exceptions, together with C02: two machines, two buffers with the same contents, wherever their data lives and
however it is cut. -/
theorem c93_machines (hw : 16 ≤ w.bits ∧ w.bits ≤ 64) (hw' : 16 ≤ w'.bits ∧ w'.bits ≤ 64) (hp : RepP p f) (hq : RepP q g) (h : SameBytes f g)
    (v : Visitor Cow O) : AlikeOutcome v (MendOn.record w v p).res (MendOn.record w' v q).res := by
  have h1 := MendOn.record_run hw hp v
  have h2 := MendOn.record_run hw' hq v
  have h3 : f.input.plain 0 = g.input.plain 0 := by
    simp only [Input.plain, Flat.input, h.bytes, h.fin, h.cfg]
  rw [← Ideal.record_plain g.input 0, ← h3, Ideal.record_plain] at h2
  rcases hr : Ideal.record f.input with e | ⟨rec, md⟩ <;> rw [hr] at h1 h2
  · obtain ⟨e1, h4, h5⟩ := h1
    obtain ⟨e2, h6, h7⟩ := h2
    refine .inl ⟨e1, e2, h4, h6, ?_⟩
    rcases h5 with rfl | ⟨ha, hb⟩ <;> rcases h7 with rfl | ⟨hc, hd⟩
    · exact .inl rfl
    · exact .inr ⟨by simp [hc], by simp [hd]⟩
    · exact .inr ⟨by simp [hb], by simp [ha]⟩
    · exact .inl (hb.trans hd.symm)
  · obtain ⟨a, h4, h5⟩ := h1
    obtain ⟨b, h6, h7⟩ := h2
    exact .inr ⟨a, b, md, h4.trans h6.symm, h5, h7⟩

/-- **C93** What one machine accepts, the other accepts, with the same contents: as `parse_record` into a pair of record and metadata. -/
theorem c93_accepts (hw : 16 ≤ w.bits ∧ w.bits ≤ 64) (hw' : 16 ≤ w'.bits ∧ w'.bits ≤ 64) (hp : RepP p f) (hq : RepP q g) (h : SameBytes f g)
    {a : Record Cow} {md : Metadata} (ha : (MendOn.record w pairVisitor p).res = .ok (a, md)) :
    ∃ b, (MendOn.record w' pairVisitor q).res = .ok (b, md) ∧ b.view = a.view := by
  rcases c93_machines hw hw' hp hq h pairVisitor with ⟨e, _, h1, _⟩ | ⟨x, y, md', h1, h2, h3⟩
  · rw [h1] at ha; cases ha
  · rw [h2] at ha
    have key : ∀ z : Record Cow, ∃ r, pairVisitor.apply z md' = .ok (r, md') ∧
        r.view = (match z.view with | .unknown _ d => .unknown md'.ty d | other => other) := by
      intro z; cases z <;> exact ⟨_, rfl, rfl⟩
    obtain ⟨r, hr, hrv⟩ := key x
    obtain ⟨s, hs, hsv⟩ := key y
    rw [hr] at ha
    cases ha
    exact ⟨s, h3.trans hs, by rw [hsv, hrv, h1]⟩

/-- **C93** Whatever the kernel writes is read on every machine, with every field the kernel put in. -/
theorem c93_round_trip (hw : 16 ≤ w.bits ∧ w.bits ≤ 64) (hp : RepP p f) (hs : Src f.cfg o) (r : KRecord) (hr : r.body.Written f.cfg r.misc)
    (hsize : r.sizeAll o f.cfg < 65536) (hb : f.s.bytes = r.encAll o f.cfg ++ tl) (v : Visitor Cow O) :
    ∃ a : Record Cow, a.view = r.body.value f.cfg r.misc ∧ (MendOn.record w v p).res = v.apply a (r.metadataAll f.cfg) := by
  have h1 := MendOn.record_run hw hp v
  rw [Ideal.record_enc hs r hr hsize hb] at h1
  exact h1

/-- **C93** The parser is left where the 64-bit machine leaves it, from any buffer at all. -/
theorem c93_framing {δ : Type} [ParseBuf δ] (w : Platform) (v : Visitor Cow O) (p : Parser δ) :
    (MendOn.record w v p).st = (Mend.record v p).st := MendOn.record_st p v

/-! ## Cases -/

/-- The call chain of the sample in `bs` at address `addr`, or nothing if it is rejected. -/
def mendedChainOn (w : Platform) (addr : Nat) (bs : List Byte) : Option (Option (List U64)) :=
  match (MendOn.record w (recordVisitor Cow) (Parser.new (⟨addr, bs⟩ : Slice) (narrowCfg 0x20#64))).res with
  | .ok (.sample s) => some (s.callchain.map (·.data))
  | _ => none

/-- The sample of `c83_false` is rejected by all three machines. -/
theorem c93_overlong :
    (∀ w ∈ [Platform.wide, .arm32, .x86, ⟨16, 2⟩], mendedChainOn w 0 overlongSample = none) ∧
    chainOn .arm32 0 overlongSample = some (some [7#64]) := by decide +kernel

/-- The sample of `c83_x86_false` is read by all of them, at every address. -/
theorem c93_chain :
    (∀ w ∈ [Platform.wide, .arm32, .x86, ⟨16, 2⟩], ∀ a ∈ [0, 1, 2, 3, 4, 5, 6, 7, 8], mendedChainOn w a chainSample = some (some [7#64])) ∧
    chainOn .arm32 4 chainSample = none := by decide +kernel

/-- The error that differs: the 64-bit machine finds the record too short, the 32-bit one the count too large. -/
theorem c93_instead :
    (match (Mend.record (recordVisitor Cow) (Parser.new (⟨0, overlongSample⟩ : Slice) (narrowCfg 0x20#64))).res,
        (MendOn.record .arm32 (recordVisitor Cow) (Parser.new (⟨0, overlongSample⟩ : Slice) (narrowCfg 0x20#64))).res with
      | .error (.err e), .error (.err e') => e.kind == .eof && e'.kind == .invalidRecord
      | _, _ => false) = true := by decide +kernel

/-- Beyond the 16 bits that the size of a record has, the hypothesis is needed: with 8-bit words the same sample, padded, is refused. -/
theorem c93_bits :
    mendedChainOn ⟨8, 1⟩ 0 ([9, 0, 0, 0, 0, 0, 16, 1] ++ [32, 0, 0, 0, 0, 0, 0, 0] ++ List.replicate 256 0) = none ∧
    mendedChainOn ⟨16, 1⟩ 0 ([9, 0, 0, 0, 0, 0, 16, 1] ++ [32, 0, 0, 0, 0, 0, 0, 0] ++ List.replicate 256 0) =
      some (some (List.replicate 32 0#64)) := by decide +kernel

end Perf
