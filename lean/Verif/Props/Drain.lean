import Verif.Proof.Drain
import Verif.Props.Prims
/-!
# C67: where a failing call leaves the parser
-/
namespace Perf
variable {β : Type} [ParseBuf β] [LawfulEof β] {p : Parser β} {f : Flat} {α O : Type}

theorem UsesUp.run {m : P β α} (h : UsesUp m) (hp : RepP p f) (hf : f.s.fin.kind = .eof) {e : ParseError}
    (he : (m p).res = .error (.err e)) (hk : e.kind = .eof) : RepP (m p).st (f.adv f.s.bytes.length) := by
  have h1 := h p f hp hf
  unfold DrainOut at h1
  rw [he] at h1
  exact h1 hk

/-- **C67** The primitive operations: if one fails with an error of kind `Eof`, the parser is at the end of the input. -/
theorem c67_primitives (hp : RepP p f) (hf : f.s.fin.kind = .eof) (n : Nat) {e : ParseError} (hk : e.kind = .eof) :
    ((P.array n p).res = .error (.err e) → RepP (P.array n p).st (f.adv f.s.bytes.length)) ∧
    ((P.toSlice n p).res = .error (.err e) → RepP (P.toSlice n p).st (f.adv f.s.bytes.length)) ∧
    ((P.bytes n p).res = .error (.err e) → RepP (P.bytes n p).st (f.adv f.s.bytes.length)) ∧
    ((P.bytesIgnored n p).res = .error (.err e) → RepP (P.bytesIgnored n p).st (f.adv f.s.bytes.length)) ∧
    ((P.rest p).res = .error (.err e) → RepP (P.rest p).st (f.adv f.s.bytes.length)) ∧
    ((P.slice U64.elem parseU64 n p).res = .error (.err e) →
      RepP (P.slice U64.elem parseU64 n p).st (f.adv f.s.bytes.length)) ∧
    ((P.splitAt n p).res = .error (.err e) → RepP (P.splitAt n p).st (f.adv f.s.bytes.length)) :=
  ⟨fun h => (UsesUp.array n).run hp hf h hk, fun h => (UsesUp.toSlice n).run hp hf h hk,
    fun h => (UsesUp.bytes n).run hp hf h hk,
    fun h => (UsesUp.bind UsesUp.fuel fun _ => UsesUp.ignoredLoop _ _ : UsesUp (P.bytesIgnored n)).run hp hf h hk,
    fun h => UsesUp.rest.run hp hf h hk,
    fun h => (UsesUp.slice _ _ (UsesUp.closed.u64)).run hp hf h hk, fun h => (UsesUp.splitAt n).run hp hf h hk⟩

/-- **C67** The same for the contents of every record type, for the header and for the trailer. -/
theorem c67_body (hp : RepP p f) (hf : f.s.fin.kind = .eof) (ty : U32) {e : ParseError} (hk : e.kind = .eof) :
    (((parseBody ty : P β (Record Cow)) p).res = .error (.err e) →
      RepP ((parseBody ty : P β (Record Cow)) p).st (f.adv f.s.bytes.length)) ∧
    (((parseHeader : P β Header) p).res = .error (.err e) →
      RepP ((parseHeader : P β Header) p).st (f.adv f.s.bytes.length)) ∧
    (((parseSampleId : P β SampleId) p).res = .error (.err e) →
      RepP ((parseSampleId : P β SampleId) p).st (f.adv f.s.bytes.length)) :=
  ⟨fun h => (UsesUp.closed.body ty).run hp hf h hk, fun h => UsesUp.closed.header.run hp hf h hk,
    fun h => UsesUp.closed.sampleId.run hp hf h hk⟩

/-- Where `parse_record` leaves the parser: behind the record; at the end if the header or the record is cut off; behind
the header if its size is less than that of a header. -/
def recordEnd (f : Flat) : Nat :=
  if f.s.bytes.length < 8 then f.s.bytes.length
  else if (headerAt f).size.toNat < 8 then 8
  else min (headerAt f).size.toNat f.s.bytes.length

/-- The part behind the header. -/
theorem P.recordWithHeader_end (hp : RepP p f) (hf : f.s.fin.kind = .eof) (v : Visitor Cow O) (h : Header) :
    RepP (P.recordWithHeader v h p).st
      (f.adv (if h.size.toNat < 8 then 0 else min (h.size.toNat - 8) f.s.bytes.length)) := by
  by_cases h8 : h.size.toNat < 8
  · rw [if_pos h8, Flat.adv_zero]
    unfold P.recordWithHeader P.metadataWithHeader
    rw [if_pos h8, P.bind_err (show P.fail _ p = ⟨.error _, p, []⟩ from rfl)]
    exact hp
  · rw [if_neg h8]
    rcases Nat.lt_or_ge f.s.bytes.length (h.size.toNat - 8) with hlt | hle
    · rw [Nat.min_eq_right (by omega)]
      have hlim : h.size.toNat - 8 < usizeLimit := by
        have := h.size.isLt
        unfold usizeLimit
        omega
      have hs := (P.splitAt_takes hp hlim).1
      rw [if_neg (by omega)] at hs
      have hd := (UsesUp.splitAt (h.size.toNat - 8)).run hp hf hs hf
      unfold P.recordWithHeader P.metadataWithHeader
      rw [if_neg h8, P.bind_err (P.bind_err (P.run_eq _ hs))]
      exact hd
    · rw [Nat.min_eq_left hle]
      exact ((P.recordWithHeader_run hp v h).1 (by omega) hle).1

/-- **C67** `parse_record`, for every input and visitor, whatever the outcome. -/
theorem c67_record (hp : RepP p f) (hf : f.s.fin.kind = .eof) (v : Visitor Cow O) :
    RepP (P.record v p).st (f.adv (recordEnd f)) := by
  unfold recordEnd
  rcases P.record_run hp v with ⟨h, _⟩ | ⟨h, q, hq, _, h1⟩
  · rw [if_pos h]
    have he := P.header_short hp h
    have hd := UsesUp.closed.header.run hp hf (congrArg Out.res he) hf
    unfold P.record
    rw [P.bind_err he]
    exact hd
  · rw [if_neg (by omega), h1]
    have h2 := P.recordWithHeader_end hq hf v (headerAt f)
    rw [Flat.adv_adv] at h2
    by_cases h8 : (headerAt f).size.toNat < 8
    · rw [if_pos h8] at h2 ⊢
      exact h2
    · rw [if_neg h8] at h2 ⊢
      rw [Flat.adv_bytes, List.length_drop] at h2
      rw [show min (headerAt f).size.toNat f.s.bytes.length =
        8 + min ((headerAt f).size.toNat - 8) (f.s.bytes.length - 8) by omega]
      exact h2

/-- **C67** A loop over the records of an input that is cut off in the middle of a record does not see the rest again: after
the error the parser is at the end, and every further call reports the end. -/
theorem c67_cut_off (hp : RepP p f) (hf : f.s.fin.kind = .eof) (v v' : Visitor Cow O)
    (h : f.s.bytes.length < 8 ∨ 8 ≤ (headerAt f).size.toNat ∧ f.s.bytes.length < (headerAt f).size.toNat) :
    (P.record v p).res = .error (.err f.s.fin) ∧ RepP (P.record v p).st (f.adv f.s.bytes.length) ∧
    (P.record v' (P.record v p).st).res = .error (.err f.s.fin) := by
  have h1 := c67_record hp hf v
  have hl : recordEnd f = f.s.bytes.length := by
    unfold recordEnd
    split
    · rfl
    · rw [if_neg (by omega)]; omega
  rw [hl] at h1
  refine ⟨?_, h1, ?_⟩
  · rcases P.record_run hp v with ⟨_, h2, _⟩ | ⟨h8, q, hq, _, h2⟩
    · exact h2
    · rw [h2]
      have h3 := (P.recordWithHeader_run hq v (headerAt f)).2.2
      have h4 : Spec.metadataWithHeader (headerAt f) (f.adv 8) = .error (.err f.s.fin) := by
        unfold Spec.metadataWithHeader
        rw [if_neg (by omega), if_neg (by rw [Flat.adv_bytes, List.length_drop]; omega)]
        rfl
      rw [h4] at h3
      exact h3
  · rcases P.record_run h1 v' with ⟨_, h2, _⟩ | ⟨h8, _⟩
    · exact h2
    · rw [Flat.adv_bytes, List.drop_length] at h8
      exact absurd h8 (by decide)

/-- **C36** in general: a call that runs out of a non-empty input always modifies the parser. -/
theorem c36_eof_false (hp : RepP p f) (hf : f.s.fin.kind = .eof) (hne : f.s.bytes ≠ []) (ty : U32) {e : ParseError}
    (hk : e.kind = .eof) (he : ((parseBody ty : P β (Record Cow)) p).res = .error (.err e)) :
    ((parseBody ty : P β (Record Cow)) p).st.data.offset = p.data.offset + f.s.bytes.length ∧
    ((parseBody ty : P β (Record Cow)) p).st ≠ p := by
  have h1 := ((c67_body hp hf ty hk).1 he).off
  have h2 := hp.off
  have h3 : 0 < f.s.bytes.length := List.length_pos_iff.mpr hne
  have h4 : (f.adv f.s.bytes.length).off = f.off + f.s.bytes.length := rfl
  rw [h4] at h1
  refine ⟨by omega, fun h => ?_⟩
  rw [h] at h1
  omega

/-- A COMM record that promises 100 bytes where 20 are left, and a header of size 3. -/
example : (match P.parseRecord (Parser.new (⟨0, [3, 0, 0, 0, 0, 0, 100, 0] ++ List.replicate 12 1⟩ : Slice) demoCfg) with
    | ⟨.error (.err e), st, _⟩ => e == .eof && st.data.offset == 20 && st.data.buf == ⟨20, []⟩
    | _ => false) = true ∧
  (match P.parseRecord (Parser.new (⟨0, [3, 0, 0, 0, 0, 0, 3, 0] ++ List.replicate 12 1⟩ : Slice) demoCfg) with
    | ⟨.error (.err e), st, _⟩ => e.kind == .invalidRecord && st.data.offset == 8
    | _ => false) = true := by decide +kernel

end Perf
