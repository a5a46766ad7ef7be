import Verif.Proof.Snug
import Verif.Props.Memory
/-!
# C80: every request for memory, with the growth of vectors

`Heap.record` is `Parser::parse_record` with a log that also lists what `P.record` leaves out: the slots for the chunks of a region split
off, the growth of vectors whose capacity was capped, the copy of a borrowed piece that has to be extended, and the second half of an owned
slice cut in two. Nothing is assumed of the buffer.
-/
namespace Perf
variable {β : Type} [ParseBuf β] {O : Type}

/-! ## C80 -/

/-- **C80** The refined run returns the same and leaves the same behind; the requests of the plain run are among its requests, in order. -/
theorem c80_same (v : Visitor Cow O) (p : Parser β) :
    (Heap.record v p).res = (P.record v p).res ∧ (Heap.record v p).st = (P.record v p).st ∧
    (P.record v p).log.Sublist (Heap.record v p).log :=
  Erases.record v p

/-- **C80** A record announced as `size` bytes costs at most `96 + 227 * (size - 8)` bytes altogether, counting every intermediate
allocation of every growing vector; `96 + 211 * (size - 8)` if it is returned. -/
theorem c80_with_header (v : Visitor Cow O) (h : Header) (p : Parser β) :
    (Heap.recordWithHeader v h p).log.sum ≤ 96 + 227 * (h.size.toNat - 8) ∧
    ∀ a, (Heap.recordWithHeader v h p).res = .ok a → (Heap.recordWithHeader v h p).log.sum ≤ 96 + 211 * (h.size.toNat - 8) := by
  have hr := Heap.record_cost v h p
  refine ⟨?_, fun a ha => ?_⟩
  · have hs : slack (16 * (h.size.toNat - 8)) (Heap.recordWithHeader v h p).res ≤ 16 * (h.size.toNat - 8) := by
      unfold slack; split <;> omega
    omega
  · rw [ha] at hr
    exact hr

/-- The header comes first, and requests nothing. -/
theorem Heap.record_header (v : Visitor Cow O) (p : Parser β) :
    (∃ e, ((parseHeader : P β Header) p).res = .error e ∧ (Heap.record v p).res = .error e ∧ (Heap.record v p).log = [] ∧
      (Heap.record v p).st = ((parseHeader : P β Header) p).st) ∨
    ∃ h, ((parseHeader : P β Header) p).res = .ok h ∧
      Heap.record v p = Heap.recordWithHeader v h ((parseHeader : P β Header) p).st := by
  have hl := (Eats.header (β := β) Costs.stable p trivial).2.1
  rcases hm : ((parseHeader : P β Header) p).res with e | h
  · have hr : Heap.record v p = _ := P.bind_err (P.run_eq _ hm)
    rw [hr]
    exact .inl ⟨e, rfl, rfl, hl, rfl⟩
  · refine .inr ⟨h, rfl, ?_⟩
    have he := P.run_eq _ hm
    rw [hl] at he
    exact P.bind_nil he

/-- **C80** `parse_record`: nothing if the header cannot be read, otherwise bounded by the size it announces. -/
theorem c80_record (v : Visitor Cow O) (p : Parser β) :
    (∀ e, ((parseHeader : P β Header) p).res = .error e → (Heap.record v p).log = []) ∧
    ∀ h, ((parseHeader : P β Header) p).res = .ok h →
      (Heap.record v p).log.sum ≤ 96 + 227 * (h.size.toNat - 8) ∧
      ∀ a, (Heap.record v p).res = .ok a → (Heap.record v p).log.sum ≤ 96 + 211 * (h.size.toNat - 8) := by
  rcases Heap.record_header v p with ⟨e, h1, _, h2, _⟩ | ⟨h, h1, h2⟩
  · rw [h1]
    exact ⟨fun _ _ => h2, nofun⟩
  · rw [h1, h2]
    exact ⟨nofun, fun h' hh => Except.ok.inj hh ▸ c80_with_header v h _⟩

/-- **C80** No call, on any input through any buffer, allocates 15 million bytes in total. -/
theorem c80_absolute (v : Visitor Cow O) (p : Parser β) : (Heap.record v p).log.sum < 15000000 := by
  rcases hm : ((parseHeader : P β Header) p).res with e | h
  · rw [(c80_record v p).1 e hm]; decide
  · have h1 := ((c80_record v p).2 h hm).1
    have h2 := h.size.isLt
    omega

/-- **C80** Unless something panics, what a call allocates is bounded by what it consumes, not by what the record announces. -/
theorem c80_consumed (v : Visitor Cow O) (p : Parser β) (hn : (Heap.record v p).res ≠ .error .panic) :
    p.data.offset ≤ (Heap.record v p).st.data.offset ∧
    (Heap.record v p).log.sum ≤ 96 + 227 * ((Heap.record v p).st.data.offset - p.data.offset) := by
  have hh := (Eats.header (β := β) Costs.stable p trivial).2.2.1
  rcases Heap.record_header v p with ⟨e, h1, _, h2, h3⟩ | ⟨h, h1, h2⟩
  · rw [h2, h3]
    exact ⟨hh, Nat.zero_le _⟩
  rw [h2] at hn ⊢
  generalize ((parseHeader : P β Header) p).st = q at hn hh ⊢
  suffices hs : q.data.offset ≤ (Heap.recordWithHeader v h q).st.data.offset ∧
      (Heap.recordWithHeader v h q).log.sum ≤ 96 + 227 * ((Heap.recordWithHeader v h q).st.data.offset - q.data.offset) by
    omega
  by_cases h8 : h.size.toNat < 8
  · have hr : (Heap.metadataWithHeader h : P β (Parser Cursor × Metadata)) q =
        ⟨.error (.err (.custom .invalidRecord "header size was too small to be valid")), q, []⟩ := by
      unfold Heap.metadataWithHeader
      rw [if_pos h8]; rfl
    have hr' : Heap.recordWithHeader v h q = _ := P.bind_err hr
    rw [hr']
    exact ⟨Nat.le_refl _, Nat.zero_le _⟩
  obtain ⟨s1, s2, n, _, s4, s5⟩ := Heap.splitAt_cost (β := β) (h.size.toNat - 8) q
  obtain ⟨e1, e2, _⟩ := Erases.splitAt (β := β) (h.size.toNat - 8) q
  rcases hsp : ((Heap.splitAt (h.size.toNat - 8) : P β (Parser Cursor)) q).res with e | c
  · have hr : (Heap.metadataWithHeader h : P β (Parser Cursor × Metadata)) q = ⟨.error e,
        ((Heap.splitAt (h.size.toNat - 8) : P β (Parser Cursor)) q).st,
        ((Heap.splitAt (h.size.toNat - 8) : P β (Parser Cursor)) q).log⟩ := by
      unfold Heap.metadataWithHeader
      rw [if_neg h8]
      exact P.bind_err (P.run_eq _ hsp)
    have hr' : Heap.recordWithHeader v h q = _ := P.bind_err hr
    rw [hr'] at hn ⊢
    have := s4 (by rw [hsp]; exact fun h => hn (by rw [Except.error.inj h]))
    exact ⟨s1, by simp only; omega⟩
  · have hst : (Heap.recordWithHeader v h q).st = ((Heap.splitAt (h.size.toNat - 8) : P β (Parser Cursor)) q).st := by
      rw [(Erases.recordWithHeader v h q).2.1, e2]
      exact P.recordWithHeader_st v h8 (e1.symm.trans hsp)
    have := s2 c hsp
    have := (c80_with_header v h q).1
    rw [hst]
    omega

/-- The requests of `n` calls of `parse_record` in a row, whatever each of them returns. -/
def Heap.requests (v : Visitor Cow O) : Nat → Parser β → List Nat
  | 0, _ => []
  | n + 1, p => (Heap.record v p).log ++ Heap.requests v n (Heap.record v p).st

/-- **C80** Over a whole stream, going on after errors or not: 96 bytes a call and 227 for each byte consumed. -/
theorem c80_stream (v : Visitor Cow O) : ∀ (n : Nat) (p : Parser β),
    (∀ o ∈ outcomes v n p, o.res ≠ .error .panic) →
    (Heap.requests v n p).sum ≤ 96 * n + 227 * (positionAfter v n p - p.data.offset)
  | 0, p, _ => Nat.zero_le _
  | n + 1, p, h => by
    obtain ⟨e1, e2, _⟩ := Erases.record v p
    obtain ⟨h1, h2⟩ := c80_consumed v p (by rw [e1]; exact h _ List.mem_cons_self)
    have ho : ∀ o ∈ outcomes v n (P.record v p).st, o.res ≠ .error .panic := fun o ho => h o (List.mem_cons_of_mem _ ho)
    have h3 := (c64_stream v n (P.record v p).st ho).1
    have h4 := c80_stream v n (P.record v p).st ho
    have e3 : positionAfter v (n + 1) p = positionAfter v n (P.record v p).st := rfl
    have e4 : (Heap.requests v (n + 1) p) = (Heap.record v p).log ++ Heap.requests v n (Heap.record v p).st := rfl
    rw [e3, e4, List.sum_append, e2]
    rw [e2] at h1 h2
    omega

/-- **C80** From a byte slice nothing ever grows: beyond the requests of the plain run there are only the slots for at most two regions,
48 bytes each, ahead of the others. -/
theorem c80_slice (v : Visitor Cow O) (h : Header) (p : Parser Slice) :
    (∃ k, k ≤ 2 ∧ (Heap.recordWithHeader v h p).log = List.replicate k 48 ++ (P.recordWithHeader v h p).log) ∧
    (Heap.recordWithHeader v h p).log.sum ≤ 96 + 2 * (h.size.toNat - 8) ∧
    ∀ a, (Heap.recordWithHeader v h p).res = .ok a → (Heap.recordWithHeader v h p).log.sum ≤ 96 + (h.size.toNat - 8) := by
  obtain ⟨h1, h2, h3⟩ := c64_slice v h p
  obtain ⟨k, hk, hl⟩ := Heap.record_one Measured.slice.toOnePiece v h p _ rfl h1
  have hs : (Heap.recordWithHeader v h p).log.sum = k * 48 + (P.recordWithHeader v h p).log.sum := by
    rw [hl, List.sum_append]
    have : ∀ k, (List.replicate k 48).sum = k * 48 := fun k => by
      induction k with
      | zero => rfl
      | succ k ih => rw [List.replicate_succ, List.sum_cons, ih]; omega
    rw [this]
  refine ⟨⟨k, hk, hl⟩, by omega, fun a ha => ?_⟩
  rw [(Erases.recordWithHeader v h p).1] at ha
  have := h3 a ha
  omega

/-- A COMM record whose 24 bytes of body arrive one at a time. -/
def demoDripBytes : List Byte := [3, 0, 0, 0, 0, 0, 32, 0, 1, 0, 0, 0, 2, 0, 0, 0, 97, 98, 99, 100, 101, 102, 103, 104, 105, 106, 107, 108,
  109, 110, 111, 0]
def demoDrip : Parser BufReader := Parser.new ⟨[], demoDripBytes.map fun b => .data [b]⟩ (.default (.little .little) .little)
/-- Splitting off the region twice copies byte by byte, with slots for 2, 4, 8, 16 and 32 pieces each time; then the command name starts as
a copy of one byte and grows to 8 and 16. -/
example : (Heap.record (recordVisitor Cow) demoDrip).log.sum = 3049 ∧ (P.record (recordVisitor Cow) demoDrip).log = List.replicate 49 1 := by
  decide +kernel
/-- The same record from a slice. -/
example : (Heap.record (recordVisitor Cow) (Parser.new (⟨0, demoDripBytes⟩ : Slice) (.default (.little .little) .little))).log = [48, 48] := by decide +kernel
end Perf
