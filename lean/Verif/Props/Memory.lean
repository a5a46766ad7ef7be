import Verif.Proof.Memory
import Verif.Props.Config
import Verif.Props.Framing
/-!
# C64: how much memory a record can make the parser request, in total

The log of a call lists every `Vec::with_capacity` and `to_vec` of input-dependent size, in bytes. Nothing is assumed of the buffer.
-/
namespace Perf
variable {β : Type} [ParseBuf β] {O : Type}

/-! ## C64 -/

/-- **C64** Parsing a record announced as `size` bytes requests at most `4 * (size - 8)` bytes altogether, and at most
`3 * (size - 8)` if it returns; for `MMAP` and `SAMPLE` records one time less. -/
theorem c64_with_header (v : Visitor Cow O) (h : Header) (p : Parser β) :
    (P.recordWithHeader v h p).log.sum ≤ 4 * (h.size.toNat - 8) ∧
    (∀ a, (P.recordWithHeader v h p).res = .ok a → (P.recordWithHeader v h p).log.sum ≤ 3 * (h.size.toNat - 8)) ∧
    (h.type_.toNat = 1 ∨ h.type_.toNat = 9 →
      (P.recordWithHeader v h p).log.sum ≤ 3 * (h.size.toNat - 8) ∧
      ∀ a, (P.recordWithHeader v h p).res = .ok a → (P.recordWithHeader v h p).log.sum ≤ 2 * (h.size.toNat - 8)) := by
  have hm := (Costs.metadataWithHeader h p).1
  have hr := Costs.recordWithHeader v h p hm
  have hk : (if Costs.once h then 1 else 2) * (h.size.toNat - 8) ≤ 2 * (h.size.toNat - 8) :=
    Nat.mul_le_mul_right _ (by split <;> omega)
  have hs : slack (h.size.toNat - 8) (P.recordWithHeader v h p).res ≤ h.size.toNat - 8 := by unfold slack; split <;> omega
  refine ⟨by omega, fun a ha => ?_, fun ho => ?_⟩
  · rw [ha] at hr
    simp only [slack] at hr
    omega
  · have ho' : Costs.once h = true := decide_eq_true ho
    rw [ho', if_pos rfl] at hr
    refine ⟨by omega, fun a ha => ?_⟩
    rw [ha] at hr
    simp only [slack] at hr
    omega

/-- What `parse_record` does after its header. -/
theorem P.record_header (v : Visitor Cow O) (p : Parser β) :
    (∃ e, ((parseHeader : P β Header) p).res = .error e ∧ (P.record v p).res = .error e ∧ (P.record v p).log = [] ∧
      (P.record v p).st = ((parseHeader : P β Header) p).st) ∨
    ∃ h, ((parseHeader : P β Header) p).res = .ok h ∧
      P.record v p = P.recordWithHeader v h ((parseHeader : P β Header) p).st := by
  have hl := (Eats.header (β := β) Costs.stable p trivial).2.1
  rcases hm : ((parseHeader : P β Header) p).res with e | h
  · have hr : P.record v p = _ := P.bind_err (P.run_eq _ hm)
    rw [hr]
    exact .inl ⟨e, rfl, rfl, hl, rfl⟩
  · refine .inr ⟨h, rfl, ?_⟩
    have hr := P.run_eq _ hm
    rw [hl] at hr
    exact P.bind_nil hr

/-- **C64** The same for `parse_record`, in terms of the header it reads; without a header nothing is requested. -/
theorem c64_record (v : Visitor Cow O) (p : Parser β) :
    (∀ e, ((parseHeader : P β Header) p).res = .error e → (P.record v p).log = []) ∧
    ∀ h, ((parseHeader : P β Header) p).res = .ok h →
      (P.record v p).log.sum ≤ 4 * (h.size.toNat - 8) ∧
      ∀ a, (P.record v p).res = .ok a → (P.record v p).log.sum ≤ 3 * (h.size.toNat - 8) := by
  rcases P.record_header v p with ⟨e, h1, _, h2, _⟩ | ⟨h, h1, h2⟩
  · rw [h1]
    exact ⟨fun _ _ => h2, nofun⟩
  · rw [h1, h2]
    refine ⟨nofun, fun h' hh => ?_⟩
    cases hh
    exact ⟨(c64_with_header v h _).1, (c64_with_header v h _).2.1⟩

/-- **C64** So no input whatever, in whatever buffer, makes `parse_record` request more than 256 KiB. -/
theorem c64_absolute (v : Visitor Cow O) (p : Parser β) : (P.record v p).log.sum < 262144 := by
  rcases hm : ((parseHeader : P β Header) p).res with e | h
  · rw [(c64_record v p).1 e hm]; decide
  · have h1 := ((c64_record v p).2 h hm).1
    have h2 := h.size.isLt
    omega

/-- **C64** Reading only the metadata of a record copies it at most twice. -/
theorem c64_metadata (h : Header) (p : Parser β) :
    ((P.metadataWithHeader h : P β (Parser Cursor × Metadata)) p).log.sum ≤ 2 * (h.size.toNat - 8) :=
  Nat.le_trans (Costs.metadataWithHeader h p).1 (Nat.mul_le_mul_right _ (by split <;> omega))

/-- **C64** A buffer that lends its data (a byte slice, a list of pieces) is not copied to split off the record: at most
the size of the body is requested if the record is returned, twice that if not. -/
theorem c64_borrowed {I : Parser β → Prop} (e : External I) (v : Visitor Cow O) (h : Header) {p : Parser β} (hp : I p) :
    ((P.metadataWithHeader h : P β (Parser Cursor × Metadata)) p).log = [] ∧
    (P.recordWithHeader v h p).log.sum ≤ 2 * (h.size.toNat - 8) ∧
    ∀ a, (P.recordWithHeader v h p).res = .ok a → (P.recordWithHeader v h p).log.sum ≤ h.size.toNat - 8 := by
  have hm := (Free.metadataWithHeader e h p hp).2.1
  have hr := Costs.recordWithHeader v h p (n := 0) (by rw [hm]; exact Nat.le_refl _)
  have hs : slack (h.size.toNat - 8) (P.recordWithHeader v h p).res ≤ h.size.toNat - 8 := by unfold slack; split <;> omega
  refine ⟨hm, by omega, fun a ha => ?_⟩
  rw [ha] at hr
  simp only [slack] at hr
  omega

theorem c64_slice (v : Visitor Cow O) (h : Header) (p : Parser Slice) :
    ((P.metadataWithHeader h : P Slice (Parser Cursor × Metadata)) p).log = [] ∧
    (P.recordWithHeader v h p).log.sum ≤ 2 * (h.size.toNat - 8) ∧
    ∀ a, (P.recordWithHeader v h p).res = .ok a → (P.recordWithHeader v h p).log.sum ≤ h.size.toNat - 8 :=
  c64_borrowed External.slice v h trivial

theorem c64_pieces (v : Visitor Cow O) (h : Header) (p : Parser ChunkBuf) :
    ((P.metadataWithHeader h : P ChunkBuf (Parser Cursor × Metadata)) p).log = [] ∧
    (P.recordWithHeader v h p).log.sum ≤ 2 * (h.size.toNat - 8) ∧
    ∀ a, (P.recordWithHeader v h p).res = .ok a → (P.recordWithHeader v h p).log.sum ≤ h.size.toNat - 8 :=
  c64_borrowed External.chunkBuf v h trivial

/-- Once the record is split off, the buffer is left alone. -/
theorem P.recordWithHeader_st (v : Visitor Cow O) {h : Header} {q : Parser β} (h8 : ¬ h.size.toNat < 8) {c : Parser Cursor}
    (hs : ((P.splitAt (h.size.toNat - 8) : P β (Parser Cursor)) q).res = .ok c) :
    (P.recordWithHeader v h q).st = ((P.splitAt (h.size.toNat - 8) : P β (Parser Cursor)) q).st := by
  have hi : ∀ I : Parser β → Prop, I ((P.splitAt (h.size.toNat - 8) : P β (Parser Cursor)) q).st →
      I (P.recordWithHeader v h q).st := by
    intro I hI
    have hm : I ((P.metadataWithHeader h : P β (Parser Cursor × Metadata)) q).st := by
      unfold P.metadataWithHeader
      rw [if_neg h8]
      simp only
      rw [P.bind_ok (P.run_eq _ hs)]
      exact (Inv.ite (Q := fun _ => True) (fun _ => Inv.pure trivial) (fun _ => Inv.ite (fun _ => Inv.fail _) fun _ =>
        Inv.skip (Inv.onChild _ _) fun _ => Inv.skip (Inv.onChild _ _) fun _ => Inv.pure trivial) _ hI).1
    rcases hr : ((P.metadataWithHeader h : P β (Parser Cursor × Metadata)) q).res with e | ⟨r, md⟩
    · have hr' : P.recordWithHeader v h q = _ := P.bind_err (P.run_eq _ hr)
      rw [hr']
      exact hm
    · have hr' : P.recordWithHeader v h q = _ := P.bind_ok (P.run_eq _ hr)
      rw [hr']
      have hbody : Inv I (fun _ => True) (match r.data.buf.asSlice with
          | some data => P.recordImpl (Parser.new data r.config) v md
          | none => P.recordImpl r v md : P β O) := by
        split
        · exact Inv.recordImpl _ v md
        · exact Inv.recordImpl _ v md
      exact (hbody _ hm).1
  exact hi (· = _) rfl

/-- **C64** Unless something panics, a call requests at most four times the bytes it consumes from the buffer, whether it
returns a record or an error: announcing much and delivering little costs nothing. -/
theorem c64_consumed (v : Visitor Cow O) (p : Parser β) (hn : (P.record v p).res ≠ .error .panic) :
    p.data.offset ≤ (P.record v p).st.data.offset ∧
    (P.record v p).log.sum ≤ 4 * ((P.record v p).st.data.offset - p.data.offset) := by
  have hh := (Eats.header (β := β) Costs.stable p trivial).2.2.1
  rcases P.record_header v p with ⟨e, h1, _, h2, h3⟩ | ⟨h, h1, h2⟩
  · rw [h2, h3]
    exact ⟨hh, Nat.zero_le _⟩
  rw [h2] at hn ⊢
  generalize ((parseHeader : P β Header) p).st = q at hn hh ⊢
  suffices hs : q.data.offset ≤ (P.recordWithHeader v h q).st.data.offset ∧
      (P.recordWithHeader v h q).log.sum ≤ 4 * ((P.recordWithHeader v h q).st.data.offset - q.data.offset) by
    omega
  by_cases h8 : h.size.toNat < 8
  · have hr : (P.metadataWithHeader h : P β (Parser Cursor × Metadata)) q =
        ⟨.error (.err (.custom .invalidRecord "header size was too small to be valid")), q, []⟩ := by
      unfold P.metadataWithHeader
      rw [if_pos h8]; rfl
    have hr' : P.recordWithHeader v h q = _ := P.bind_err hr
    rw [hr']
    exact ⟨Nat.le_refl _, Nat.zero_le _⟩
  obtain ⟨s1, s2, s3⟩ := Pays.splitAt (β := β) (h.size.toNat - 8) q
  rcases hsp : ((P.splitAt (h.size.toNat - 8) : P β (Parser Cursor)) q).res with e | c
  · have hr : (P.metadataWithHeader h : P β (Parser Cursor × Metadata)) q = ⟨.error e,
        ((P.splitAt (h.size.toNat - 8) : P β (Parser Cursor)) q).st,
        ((P.splitAt (h.size.toNat - 8) : P β (Parser Cursor)) q).log⟩ := by
      unfold P.metadataWithHeader
      rw [if_neg h8]
      exact P.bind_err (P.run_eq _ hsp)
    have hr' : P.recordWithHeader v h q = _ := P.bind_err hr
    rw [hr'] at hn ⊢
    rw [hsp] at s2
    have h0 : panicSlack (h.size.toNat - 8) (.error e : Except Fault (Parser Cursor)) = 0 := by
      cases e with
      | panic => exact absurd rfl hn
      | err _ => rfl
      | diverge => rfl
    rw [h0] at s2
    exact ⟨s1, by simp only; omega⟩
  · have hst : (P.recordWithHeader v h q).st = ((P.splitAt (h.size.toNat - 8) : P β (Parser Cursor)) q).st :=
      P.recordWithHeader_st v h8 hsp
    have := s3 c hsp
    have := (c64_with_header v h q).1
    rw [hst]
    omega

/-- `n` calls of `parse_record` in a row, whatever each of them returns. -/
def outcomes (v : Visitor Cow O) : Nat → Parser β → List (Out β O)
  | 0, _ => []
  | n + 1, p => P.record v p :: outcomes v n (P.record v p).st

/-- Where the parser stands after them. -/
def positionAfter (v : Visitor Cow O) : Nat → Parser β → Nat
  | 0, p => p.data.offset
  | n + 1, p => positionAfter v n (P.record v p).st

/-- **C64** Over a whole stream, valid or not, going on after errors or not: all memory ever requested is at most four
times the bytes consumed. -/
theorem c64_stream (v : Visitor Cow O) : ∀ (n : Nat) (p : Parser β),
    (∀ o ∈ outcomes v n p, o.res ≠ .error .panic) →
    p.data.offset ≤ positionAfter v n p ∧
    ((outcomes v n p).map fun o => o.log.sum).sum ≤ 4 * (positionAfter v n p - p.data.offset)
  | 0, p, _ => ⟨Nat.le_refl _, Nat.zero_le _⟩
  | n + 1, p, h => by
    obtain ⟨h1, h2⟩ := c64_consumed v p (h _ List.mem_cons_self)
    obtain ⟨h3, h4⟩ := c64_stream v n (P.record v p).st fun o ho => h o (List.mem_cons_of_mem _ ho)
    have e1 : positionAfter v (n + 1) p = positionAfter v n (P.record v p).st := rfl
    have e2 : ((outcomes v (n + 1) p).map fun o => o.log.sum).sum =
        (P.record v p).log.sum + ((outcomes v n (P.record v p).st).map fun o => o.log.sum).sum := rfl
    rw [e1, e2]
    omega

/-- A big endian NAMESPACES record of 24 bytes announcing 2^60 entries, through a reader on a little endian host: the 16
bytes of its body are copied twice, 16 bytes are requested for the entries although none are left (the region still
announces its full size), and it fails. Over a slice the same record costs nothing. -/
def demoHuge : List Byte := [0, 0, 0, 16, 0, 0, 0, 24, 0, 0, 0, 1, 0, 0, 0, 1, 0x10, 0, 0, 0, 0, 0, 0, 0]
example : (P.parseRecord (Parser.new (⟨[], [.data demoHuge]⟩ : BufReader) (.default (.big .little) .little))).log =
    [16, 16, 16] := by decide +kernel
example : (P.parseRecord (Parser.new (⟨0, demoHuge⟩ : Slice) (.default (.big .little) .little))).log = [0] := by decide +kernel

/-- A callchain announced as 2^60 addresses of which two are there: copy 24, request 24, fail. -/
def demoChain : ParseConfig :=
  { demoCfg with config := ⟨ConfigFlags.new 0#64 SampleFlags.CALLCHAIN false false 0#16, 0#64, 0#64⟩ }
def demoChainBytes : List Byte := [9, 0, 0, 0, 0, 0, 32, 0, 0, 0, 0, 0, 0, 0, 0, 0x10] ++ List.replicate 16 1
example : (P.parseRecord (Parser.new (⟨[], [.data demoChainBytes]⟩ : BufReader) demoChain)).log = [24, 24] := by decide +kernel
/-- The same record twice, then the end: four requests, 96 bytes, 64 consumed. -/
example :
    let p := Parser.new (⟨[], [.data (demoChainBytes ++ demoChainBytes)]⟩ : BufReader) demoChain
    ((outcomes (recordVisitor Cow) 3 p).map fun o => o.log.sum) = [48, 48, 0] ∧
      positionAfter (recordVisitor Cow) 3 p = 64 := by decide +kernel

end Perf
