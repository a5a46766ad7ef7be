import Verif.Props.Loop
import Verif.Props.Work
/-!
# C64 and C71 over a whole input

One call of `parse_record` is bounded in `Props/Memory` and `Props/Work`; here is a loop of such calls, up to the end of the input.
-/
namespace Perf
variable {β : Type} [ParseBuf β] {O : Type}

/-- How many of the calls failed. -/
def failures : List (Except Fault O) → Nat
  | [] => 0
  | .ok _ :: rs => failures rs
  | .error _ :: rs => failures rs + 1

theorem failures_le : ∀ rs : List (Except Fault O), failures rs ≤ rs.length
  | [] => Nat.le_refl _
  | .ok _ :: rs => by have := failures_le rs; simp only [failures, List.length_cons]; omega
  | .error _ :: rs => by have := failures_le rs; simp only [failures, List.length_cons]; omega

theorem visitMany_length (v : Visitor Cow O) : ∀ (n : Nat) (p : Parser β), (visitMany v n p).1.length = n
  | 0, _ => rfl
  | n + 1, p => congrArg (· + 1) (visitMany_length v n (P.record v p).st)

theorem visitMany_uncounted (v : Visitor Cow O) : ∀ (n : Nat) (p : Parser (Counted β)),
    (visitMany v n p).1 = (visitMany v n p.uncounted).1 ∧ (visitMany v n p).2.uncounted = (visitMany v n p.uncounted).2
  | 0, _ => ⟨rfl, rfl⟩
  | n + 1, p => by
    have h := Strips.record v p
    obtain ⟨h1, h2⟩ := visitMany_uncounted v n (P.record v p).st
    have e : (P.record v p).st.uncounted = (P.record v p.uncounted).st := by rw [← h]
    have e' : (P.record v p).res = (P.record v p.uncounted).res := by rw [← h]
    unfold visitMany
    rw [e] at h1 h2
    exact ⟨by rw [h1, e'], h2⟩

theorem visitMany_works {J : β → Prop} (hJ : Prompt J) (v : Visitor Cow O) : ∀ (n : Nat) (p : Parser (Counted β)), J p.data.buf.buf →
    p.data.offset ≤ (visitMany v n p).2.data.offset ∧
    (visitMany v n p).2.calls + 3 * p.data.offset ≤ p.calls + 3 * (visitMany v n p).2.data.offset + 2 * failures (visitMany v n p).1
  | 0, p, _ => ⟨Nat.le_refl _, Nat.le_refl (p.calls + 3 * p.data.offset)⟩
  | n + 1, p, hp => by
    obtain ⟨h1, h2, h3⟩ := Works.record hJ.busy v p hp
    obtain ⟨h4, h5⟩ := visitMany_works hJ v n (P.record v p).st h1
    have e1 : (visitMany v (n + 1) p).2 = (visitMany v n (P.record v p).st).2 := rfl
    have e2 : (visitMany v (n + 1) p).1 = (P.record v p).res :: (visitMany v n (P.record v p).st).1 := rfl
    rw [e1, e2]
    cases hr : (P.record v p).res <;> rw [hr] at h3 <;> simp only [Works.extra, failures] at h3 ⊢ <;> omega

/-- **C71** Over a whole stream, valid or not, going on after errors: at most three calls of the buffer per byte consumed, and two for
each record that fails. -/
theorem c71_stream {J : β → Prop} (hJ : Prompt J) (v : Visitor Cow O) (n : Nat) (p : Parser β) (hp : J p.data.buf) :
    (visitMany v n p.counted).2.calls ≤
      3 * ((visitMany v n p).2.data.offset - p.data.offset) + 2 * failures (visitMany v n p).1 := by
  obtain ⟨h1, h2⟩ := visitMany_works hJ v n p.counted hp
  obtain ⟨h3, h4⟩ := visitMany_uncounted v n p.counted
  have hc : p.counted.uncounted = p := rfl
  rw [hc] at h3 h4
  have e : (visitMany v n p.counted).2.data.offset = (visitMany v n p).2.data.offset := by rw [← h4]; rfl
  have e0 : p.counted.data.offset = p.data.offset := rfl
  have e1 : p.counted.calls = 0 := rfl
  rw [e, e0] at h1 h2
  rw [e1, h3] at h2
  omega

theorem outcomes_eq (v : Visitor Cow O) : ∀ (n : Nat) (p : Parser β), (outcomes v n p).map (·.res) = (visitMany v n p).1
  | 0, _ => rfl
  | n + 1, p => congrArg ((P.record v p).res :: ·) (outcomes_eq v n (P.record v p).st)

theorem positionAfter_eq (v : Visitor Cow O) : ∀ (n : Nat) (p : Parser β), positionAfter v n p = (visitMany v n p).2.data.offset
  | 0, _ => rfl
  | n + 1, p => positionAfter_eq v n (P.record v p).st

section
variable [LawfulEof β] {p : Parser β} {f : Flat}

/-- **C71** A whole input of `N` bytes, read record by record until nothing is left and the end was reported: at most
`3 N + 2 ((N + 7) / 8 + 1)` calls on the buffer, whatever the bytes are. -/
theorem c71_input {J : β → Prop} (hJ : Prompt J) (hJp : J p.data.buf) (hp : RepP p f) (hf : f.s.fin.kind = .eof) (v : Visitor Cow O) :
    (visitMany v ((cut f.cfg f.s.bytes).length + 1) p.counted).2.calls ≤
      3 * f.s.bytes.length + 2 * ((f.s.bytes.length + 7) / 8 + 1) := by
  have h := c71_stream hJ v ((cut f.cfg f.s.bytes).length + 1) p hJp
  have h1 := (c73_end hp hf v _ (Nat.le_succ (cut f.cfg f.s.bytes).length)).1.off
  have h2 : (visitMany v ((cut f.cfg f.s.bytes).length + 1) p).2.data.offset = f.off + f.s.bytes.length := h1
  have h3 := failures_le (visitMany v ((cut f.cfg f.s.bytes).length + 1) p).1
  rw [visitMany_length] at h3
  have h4 := (c73_blocks f.cfg f.s.bytes).2.2.1
  have h5 := hp.off
  rw [h2, h5] at h
  omega

theorem visitMany_returns (hp : RepP p f) (hf : f.s.fin.kind = .eof) (v : Visitor Cow O) (hv : v.Total) (n : Nat) :
    ∀ r ∈ (visitMany v n p).1, Returns r := by
  induction n generalizing p f with
  | zero => intro r hr; cases hr
  | succ n ih =>
    intro r hr
    rcases List.mem_cons.mp hr with rfl | hr
    · exact c01_record hp v hv
    · exact ih (c67_record hp hf v) hf r hr

/-- **C64** A whole input of `N` bytes, read until nothing is left and beyond: all memory requested together is at most four times the
input, whatever the bytes are. -/
theorem c64_input (hp : RepP p f) (hf : f.s.fin.kind = .eof) (v : Visitor Cow O) (hv : v.Total) (n : Nat) :
    ((outcomes v n p).map fun o => o.log.sum).sum ≤ 4 * f.s.bytes.length := by
  have hr := visitMany_returns hp hf v hv n
  rw [← outcomes_eq] at hr
  have h := (c64_stream v n p fun o ho e => by
    rcases hr _ (List.mem_map_of_mem ho) with ⟨a, ha⟩ | ⟨e', ha⟩ <;> rw [e] at ha <;> cases ha).2
  rw [positionAfter_eq] at h
  have h1 := (c73_position hp hf v n).off
  have h2 : (visitMany v n p).2.data.offset = f.off + ((cut f.cfg f.s.bytes).take n).flatten.length := h1
  have h3 : ((cut f.cfg f.s.bytes).take n).flatten.length ≤ f.s.bytes.length := by
    have e := congrArg List.length (congrArg List.flatten (List.take_append_drop n (cut f.cfg f.s.bytes)))
    rw [List.flatten_append, List.length_append, (c73_blocks f.cfg f.s.bytes).1] at e
    omega
  have h5 := hp.off
  rw [h2, h5] at h
  omega

end

/-- **C71**, **C64** for a slice: any input, any configuration, any visitor that does not panic itself. -/
theorem c71_slice_input (v : Visitor Cow O) (a : Nat) (d : List Byte) {cfg : ParseConfig} (hw : cfg.Wf) :
    (visitMany v ((cut cfg d).length + 1) (Parser.new (⟨a, d⟩ : Slice) cfg).counted).2.calls ≤ 3 * d.length + 2 * ((d.length + 7) / 8 + 1) :=
  c71_input Prompt.slice trivial (RepP.slice a d hw) rfl v

theorem c64_slice_input (v : Visitor Cow O) (hv : v.Total) (a : Nat) (d : List Byte) {cfg : ParseConfig} (hw : cfg.Wf) (n : Nat) :
    ((outcomes v n (Parser.new (⟨a, d⟩ : Slice) cfg)).map fun o => o.log.sum).sum ≤ 4 * d.length :=
  c64_input (RepP.slice a d hw) rfl v hv n

/-- The damaged input of `c73_while_false`, 43 bytes in three blocks of which two fail. -/
example :
    (visitMany (recordVisitor Cow) 4 (Parser.new (⟨0, demoBad⟩ : Slice) demoCfg).counted).2.calls = 21 ∧
    failures (visitMany (recordVisitor Cow) 4 (Parser.new (⟨0, demoBad⟩ : Slice) demoCfg)).1 = 3 := by decide +kernel
end Perf
